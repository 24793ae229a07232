import re,sys
sys.setrecursionlimit(100000)
s=open('/repo/src/circuit_description').read()
tok=re.findall(r'0x[0-9a-fA-F]+|"[^"]*"|[A-Za-z_][A-Za-z_0-9]*|-?\d+|[{}\[\]():,]',s)
i=0
def val():
    global i
    t=tok[i]
    if t=='[':
        i+=1; r=[]
        while tok[i]!=']':
            r.append(val())
            if tok[i]==',': i+=1
        i+=1; return r
    if t=='(':
        i+=1; r=[]
        while tok[i]!=')':
            r.append(val())
            if tok[i]==',': i+=1
        i+=1; return tuple(r)
    if re.match(r'0x|"|-?\d',t):
        i+=1; return t
    i+=1
    if tok[i]=='{':
        i+=1; d={'_':t}
        while tok[i]!='}':
            k=tok[i]; assert tok[i+1]==':',tok[i:i+3]; i+=2
            d[k]=val()
            if tok[i]==',': i+=1
        i+=1; return d
    if tok[i]=='(':
        return (t,)+val()
    return t
vk=val()
def sh(e):
    if isinstance(e,dict):
        r=e['rotation'][1]
        n={'Fixed':'f','Advice':'a','Instance':'i'}[e['_']]+e['column_index']
        return n+({'0':'','1':"'",'-1':"~"}.get(r,'@'+r))
    if e[0]=='Constant':
        v=int(e[1],16);p=0x40000000000000000000000000000000224698fc094cf91b992d30ed00000001
        return str(v) if v<2**32 else ('-'+str(p-v) if p-v<2**32 else ('2^%d'%(v.bit_length()-1) if v==1<<(v.bit_length()-1) else hex(v)))
    if e[0]=='Sum':
        if isinstance(e[2],tuple) and e[2][0]=='Negated': return '('+sh(e[1])+' - '+sh(e[2][1])+')'
        return '('+sh(e[1])+' + '+sh(e[2])+')'
    if e[0]=='Product': return sh(e[1])+'*'+sh(e[2])
    if e[0]=='Negated': return '(-'+sh(e[1])+')'
    if e[0]=='Scaled': return 'S('+sh(e[1])+','+sh(('Constant',e[2]))+')'
    raise Exception(e[:1])
