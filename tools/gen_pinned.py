from parse_pinned import *
cs=vk['cs']
def lean(e):
    if isinstance(e,dict):
        r=int(e['rotation'][1]); c=e['column_index']
        k={'Fixed':'f','Advice':'a'}[e['_']]
        return f"{k} {c} {'('+str(r)+')' if r<0 else r}"
    def p(x):
        return '('+lean(x)+')'
    k=e[0]
    if k=='Constant': return f"c {num(e[1])}"
    if k=='Negated': return f"neg {p(e[1])}"
    if k=='Sum': return f"sum {p(e[1])} {p(e[2])}"
    if k=='Product': return f"prod {p(e[1])} {p(e[2])}"
    if k=='Scaled': return f"scaled {p(e[1])} {num(e[2])}"
    raise Exception(k)
def num(h):
    v=int(h,16)
    return str(v) if v<2**16 else hex(v)
def wrap(s,ind='  ',w=110):
    out=[];line=ind
    for t in s.split(' '):
        if len(line)+len(t)+1>w and line.strip():
            out.append(line.rstrip()); line=ind
        line+=t+' '
    out.append(line.rstrip()); return '\n'.join(out)
# selectors of Pinned: check shape
def sel(e):
    # returns (col, index,size)
    fs=[]
    while not isinstance(e,dict):
        assert e[0]=='Product',e[0]
        fs.append(e[2]); e=e[1]
    col=int(e['column_index'])
    js=[]
    for x in fs:
        assert x[0]=='Sum' and x[1][0]=='Constant' and x[2][0]=='Negated' and x[2][1]['column_index']==str(col)
        js.append(int(x[1][1],16))
    n=len(js)+1
    idx=[j for j in range(1,n+1) if j not in js]
    assert len(idx)==1
    return col,idx[0],n
S=[]
for j,g in enumerate(cs['gates']):
    assert g[0]=='Product'
    try: S.append(sel(g[1]))
    except Exception:
        try: S.append(sel(g[1][1])); print('left',j)
        except Exception: print('??',j); S.append(None)
if __name__=='__main__':
    import itertools
    for k,gr in itertools.groupby(enumerate(S),key=lambda x:x[1]):
        gr=list(gr); print(k,gr[0][0],gr[-1][0])
    hdr='''import Verif.Model.Pinned.Expr

/-!
# The constraint system pinned in `/repo/src/circuit_description` (lines 1-%d), part %s

Generated from the file: `gates: [...]` in order, each expression as it stands there, without the
`query_index` of the queries.
-/

namespace Orchard.Pinned

open Expr

'''
    # line numbers of gates in file
    lines=open('/repo/src/circuit_description').read().split('\n')
    N=len(cs['gates'])
    # find line ranges
    start=[i for i,l in enumerate(lines) if l.startswith('        gates: [')][0]
    rng=[];cur=None
    for i in range(start+1,len(lines)):
        l=lines[i]
        if l.startswith('            ') and not l.startswith('             '):
            if l.strip() in ('),','},'): rng.append((cur+1,i+1)); cur=None
            else: cur=i
        if l.startswith('        ],'): end=i;break
    assert len(rng)==N,(len(rng),N)
    parts=[(0,75),(75,105),(105,193)]
    for pi,(a,b) in enumerate(parts):
        o=hdr.replace('%d',str(end+1)).replace('%s',str(pi+1))
        for j in range(a,b):
            o+=f"/-- `circuit_description:{rng[j][0]}-{rng[j][1]}` -/\ndef gate{j} : Expr :=\n"+wrap(lean(cs['gates'][j]))+"\n\n"
        o+='end Orchard.Pinned\n'
        open(f'/verif/lean/Verif/Model/Pinned/Gates{pi+1}.lean','w').write(o)
    o='''import Verif.Model.Pinned.Gates1
import Verif.Model.Pinned.Gates2
import Verif.Model.Pinned.Gates3

/-!
# The constraint system pinned in `/repo/src/circuit_description`: gates, lookups, permutation, constants

Generated from the file.
-/

namespace Orchard.Pinned

open Expr

'''
    o+=f"/-- `circuit_description:{start+1}-{end+1}` -/\ndef gates : List Expr :=\n"+wrap('['+', '.join(f'gate{j}' for j in range(N))+']')+'\n\n'
    ls=[i for i,l in enumerate(lines) if l.startswith('        lookups: [')][0]
    le=[i for i in range(ls,len(lines)) if lines[i].startswith('        ],')][0]
    o+=f"/-- `circuit_description:{ls+1}-{le+1}`: input expressions and table expressions of the lookups. -/\ndef lookups : List (List Expr × List Expr) :=\n"
    L=[]
    for l in cs['lookups']:
        L.append('  (['+',\n    '.join(wrap(lean(e),'    ').strip() for e in l['input_expressions'])+'],\n   ['+', '.join(lean(e) for e in l['table_expressions'])+'])')
    o+='  ['+',\n'.join(L).strip()+']\n\n'
    pl=[i for i,l in enumerate(lines) if l.startswith('        permutation: Argument')][0]
    pe=[i for i in range(pl,len(lines)) if lines[i].startswith('        },')][0]
    def cols(l): return '['+', '.join('.%s %s'%({'Instance':'instance','Advice':'advice','Fixed':'fixed'}[c['column_type']],c['index']) for c in l)+']'
    o+=f"/-- `circuit_description:{pl+1}-{pe+1}`: the columns of the permutation argument. -/\ndef permutation : List AnyColumn :=\n"+wrap(cols(cs['permutation']['columns']))+'\n\n'
    cl=[i for i,l in enumerate(lines) if l.startswith('        constants: [')][0]
    o+=f"/-- `circuit_description:{cl+1}`: the columns for constants. -/\ndef constants : List AnyColumn := "+cols(cs['constants'])+'\n\n'
    ql=[i for i,l in enumerate(lines) if l.startswith('        advice_queries: [')][0]
    qe=[i for i in range(ql,len(lines)) if lines[i].startswith('        ],')][0]
    import re
    qs=re.findall(r'index: (\d+),\s*column_type: Advice,\s*\},\s*Rotation\(\s*(-?\d+),','\n'.join(lines[ql:qe]))
    o+=f"/-- `circuit_description:{ql+1}-{qe+1}`: the queries of advice columns, by column and rotation. -/\ndef adviceQueries : List (ℕ × ℤ) :=\n"+wrap('['+', '.join(f'({c}, {r})' for c,r in qs)+']')+'\n\n'
    for k in ['num_fixed_columns','num_advice_columns','num_instance_columns','num_selectors']:
        ln=[i for i,l in enumerate(lines) if l.startswith('        '+k)][0]
        o+=f"/-- `circuit_description:{ln+1}` -/\ndef {''.join(w.capitalize() if i else w for i,w in enumerate(k.split('_')))} : ℕ := {cs[k]}\n\n"
    o+='end Orchard.Pinned\n'
    open('/verif/lean/Verif/Model/Pinned/Description.lean','w').write(o)
