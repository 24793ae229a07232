import Verif.Model.Pinned.Expr

/-!
# The constraint system pinned in `/repo/src/circuit_description` (lines 1-26923), part 3

Generated from the file: `gates: [...]` in order, each expression as it stands there, without the
`query_index` of the queries.
-/

namespace Orchard.Pinned

open Expr

/-- `circuit_description:15495-15606` -/
def gate105 : Expr :=
  prod (prod (prod (prod (prod (prod (f 25 0) (sum (c 1) (neg (f 25 0)))) (sum (c 2) (neg (f 25 0)))) (sum (c
  4) (neg (f 25 0)))) (sum (c 5) (neg (f 25 0)))) (sum (c 6) (neg (f 25 0)))) (prod (a 4 0) (sum (c 1) (neg
  (a 4 0))))

/-- `circuit_description:15607-15718` -/
def gate106 : Expr :=
  prod (prod (prod (prod (prod (prod (f 25 0) (sum (c 1) (neg (f 25 0)))) (sum (c 2) (neg (f 25 0)))) (sum (c
  4) (neg (f 25 0)))) (sum (c 5) (neg (f 25 0)))) (sum (c 6) (neg (f 25 0)))) (prod (a 4 1) (sum (c 1) (neg
  (a 4 1))))

/-- `circuit_description:15719-15849` -/
def gate107 : Expr :=
  prod (prod (prod (prod (prod (prod (f 25 0) (sum (c 1) (neg (f 25 0)))) (sum (c 2) (neg (f 25 0)))) (sum (c
  4) (neg (f 25 0)))) (sum (c 5) (neg (f 25 0)))) (sum (c 6) (neg (f 25 0)))) (sum (a 2 0) (neg (sum (sum (a
  3 0) (scaled (a 4 0) 16)) (scaled (a 5 0) 32))))

/-- `circuit_description:15850-15968` -/
def gate108 : Expr :=
  prod (prod (prod (prod (prod (prod (f 25 0) (sum (c 1) (neg (f 25 0)))) (sum (c 2) (neg (f 25 0)))) (sum (c
  4) (neg (f 25 0)))) (sum (c 5) (neg (f 25 0)))) (sum (c 6) (neg (f 25 0)))) (sum (a 2 1) (neg (sum (a 3 1)
  (scaled (a 4 1) 512))))

/-- `circuit_description:15969-16099` -/
def gate109 : Expr :=
  prod (prod (prod (prod (prod (prod (f 25 0) (sum (c 1) (neg (f 25 0)))) (sum (c 2) (neg (f 25 0)))) (sum (c
  4) (neg (f 25 0)))) (sum (c 5) (neg (f 25 0)))) (sum (c 6) (neg (f 25 0)))) (sum (sum (sum (a 1 0) (scaled
  (a 3 0) 0x400000000000000000000000000000000000000000000000000000000000000)) (scaled (a 4 0)
  0x4000000000000000000000000000000000000000000000000000000000000000)) (neg (a 0 0)))

/-- `circuit_description:16100-16242` -/
def gate110 : Expr :=
  prod (prod (prod (prod (prod (prod (f 25 0) (sum (c 1) (neg (f 25 0)))) (sum (c 2) (neg (f 25 0)))) (sum (c
  4) (neg (f 25 0)))) (sum (c 5) (neg (f 25 0)))) (sum (c 6) (neg (f 25 0)))) (sum (sum (sum (sum (a 5 0)
  (scaled (a 1 1) 32)) (scaled (a 3 1) 0x20000000000000000000000000000000000000000000000000000000000000))
  (scaled (a 4 1) 0x4000000000000000000000000000000000000000000000000000000000000000)) (neg (a 0 1)))

/-- `circuit_description:16243-16347` -/
def gate111 : Expr :=
  prod (prod (prod (prod (prod (prod (f 25 0) (sum (c 1) (neg (f 25 0)))) (sum (c 2) (neg (f 25 0)))) (sum (c
  4) (neg (f 25 0)))) (sum (c 5) (neg (f 25 0)))) (sum (c 6) (neg (f 25 0)))) (prod (a 4 0) (a 3 0))

/-- `circuit_description:16348-16452` -/
def gate112 : Expr :=
  prod (prod (prod (prod (prod (prod (f 25 0) (sum (c 1) (neg (f 25 0)))) (sum (c 2) (neg (f 25 0)))) (sum (c
  4) (neg (f 25 0)))) (sum (c 5) (neg (f 25 0)))) (sum (c 6) (neg (f 25 0)))) (prod (a 4 0) (a 6 0))

/-- `circuit_description:16453-16571` -/
def gate113 : Expr :=
  prod (prod (prod (prod (prod (prod (f 25 0) (sum (c 1) (neg (f 25 0)))) (sum (c 2) (neg (f 25 0)))) (sum (c
  4) (neg (f 25 0)))) (sum (c 5) (neg (f 25 0)))) (sum (c 6) (neg (f 25 0)))) (sum (sum (sum (a 1 0) (c
  0x400000000000000000000000000000000)) (neg (c 0x224698fc094cf91b992d30ed00000001))) (neg (a 7 0)))

/-- `circuit_description:16572-16676` -/
def gate114 : Expr :=
  prod (prod (prod (prod (prod (prod (f 25 0) (sum (c 1) (neg (f 25 0)))) (sum (c 2) (neg (f 25 0)))) (sum (c
  4) (neg (f 25 0)))) (sum (c 5) (neg (f 25 0)))) (sum (c 6) (neg (f 25 0)))) (prod (a 4 0) (a 8 0))

/-- `circuit_description:16677-16781` -/
def gate115 : Expr :=
  prod (prod (prod (prod (prod (prod (f 25 0) (sum (c 1) (neg (f 25 0)))) (sum (c 2) (neg (f 25 0)))) (sum (c
  4) (neg (f 25 0)))) (sum (c 5) (neg (f 25 0)))) (sum (c 6) (neg (f 25 0)))) (prod (a 4 1) (a 3 1))

/-- `circuit_description:16782-16886` -/
def gate116 : Expr :=
  prod (prod (prod (prod (prod (prod (f 25 0) (sum (c 1) (neg (f 25 0)))) (sum (c 2) (neg (f 25 0)))) (sum (c
  4) (neg (f 25 0)))) (sum (c 5) (neg (f 25 0)))) (sum (c 6) (neg (f 25 0)))) (prod (a 4 1) (a 6 1))

/-- `circuit_description:16887-17017` -/
def gate117 : Expr :=
  prod (prod (prod (prod (prod (prod (f 25 0) (sum (c 1) (neg (f 25 0)))) (sum (c 2) (neg (f 25 0)))) (sum (c
  4) (neg (f 25 0)))) (sum (c 5) (neg (f 25 0)))) (sum (c 6) (neg (f 25 0)))) (sum (sum (sum (sum (a 5 0)
  (scaled (a 1 1) 32)) (c 0x100000000000000000000000000000000000)) (neg (c
  0x224698fc094cf91b992d30ed00000001))) (neg (a 7 1)))

/-- `circuit_description:17018-17122` -/
def gate118 : Expr :=
  prod (prod (prod (prod (prod (prod (f 25 0) (sum (c 1) (neg (f 25 0)))) (sum (c 2) (neg (f 25 0)))) (sum (c
  4) (neg (f 25 0)))) (sum (c 5) (neg (f 25 0)))) (sum (c 6) (neg (f 25 0)))) (prod (a 4 1) (a 8 1))

/-- `circuit_description:17123-17234` -/
def gate119 : Expr :=
  prod (prod (prod (prod (prod (prod (f 25 0) (sum (c 1) (neg (f 25 0)))) (sum (c 2) (neg (f 25 0)))) (sum (c
  3) (neg (f 25 0)))) (sum (c 5) (neg (f 25 0)))) (sum (c 6) (neg (f 25 0)))) (prod (a 8 0) (sum (c 1) (neg
  (a 8 0))))

/-- `circuit_description:17235-17346` -/
def gate120 : Expr :=
  prod (prod (prod (prod (prod (prod (f 25 0) (sum (c 1) (neg (f 25 0)))) (sum (c 2) (neg (f 25 0)))) (sum (c
  3) (neg (f 25 0)))) (sum (c 5) (neg (f 25 0)))) (sum (c 6) (neg (f 25 0)))) (prod (a 7 1) (sum (c 1) (neg
  (a 7 1))))

/-- `circuit_description:17347-17489` -/
def gate121 : Expr :=
  prod (prod (prod (prod (prod (prod (f 25 0) (sum (c 1) (neg (f 25 0)))) (sum (c 2) (neg (f 25 0)))) (sum (c
  3) (neg (f 25 0)))) (sum (c 5) (neg (f 25 0)))) (sum (c 6) (neg (f 25 0)))) (sum (a 6 0) (neg (sum (sum
  (sum (a 7 0) (scaled (a 8 0) 16)) (scaled (a 7 1) 32)) (scaled (a 8 1) 64))))

/-- `circuit_description:17490-17601` -/
def gate122 : Expr :=
  prod (prod (prod (prod (prod (prod (f 25 0) (sum (c 1) (neg (f 25 0)))) (sum (c 2) (neg (f 25 0)))) (sum (c
  3) (neg (f 25 0)))) (sum (c 4) (neg (f 25 0)))) (sum (c 6) (neg (f 25 0)))) (prod (a 7 0) (sum (c 1) (neg
  (a 7 0))))

/-- `circuit_description:17602-17713` -/
def gate123 : Expr :=
  prod (prod (prod (prod (prod (prod (f 25 0) (sum (c 1) (neg (f 25 0)))) (sum (c 2) (neg (f 25 0)))) (sum (c
  3) (neg (f 25 0)))) (sum (c 4) (neg (f 25 0)))) (sum (c 6) (neg (f 25 0)))) (prod (a 8 0) (sum (c 1) (neg
  (a 8 0))))

/-- `circuit_description:17714-17856` -/
def gate124 : Expr :=
  prod (prod (prod (prod (prod (prod (f 25 0) (sum (c 1) (neg (f 25 0)))) (sum (c 2) (neg (f 25 0)))) (sum (c
  3) (neg (f 25 0)))) (sum (c 4) (neg (f 25 0)))) (sum (c 6) (neg (f 25 0)))) (sum (a 6 0) (neg (sum (sum
  (sum (a 7 0) (scaled (a 8 0) 2)) (scaled (a 7 1) 4)) (scaled (a 8 1) 1024))))

/-- `circuit_description:17857-17975` -/
def gate125 : Expr :=
  prod (prod (prod (prod (prod (prod (f 25 0) (sum (c 1) (neg (f 25 0)))) (sum (c 2) (neg (f 25 0)))) (sum (c
  3) (neg (f 25 0)))) (sum (c 4) (neg (f 25 0)))) (sum (c 5) (neg (f 25 0)))) (sum (a 6 0) (neg (sum (a 7 0)
  (scaled (a 8 0) 64))))

/-- `circuit_description:17976-18103` -/
def gate126 : Expr :=
  prod (prod (prod (prod (prod (prod (prod (f 26 0) (sum (c 1) (neg (f 26 0)))) (sum (c 2) (neg (f 26 0))))
  (sum (c 4) (neg (f 26 0)))) (sum (c 5) (neg (f 26 0)))) (sum (c 6) (neg (f 26 0)))) (sum (c 7) (neg (f 26
  0)))) (prod (a 7 0) (sum (c 1) (neg (a 7 0))))

/-- `circuit_description:18104-18250` -/
def gate127 : Expr :=
  prod (prod (prod (prod (prod (prod (prod (f 26 0) (sum (c 1) (neg (f 26 0)))) (sum (c 2) (neg (f 26 0))))
  (sum (c 4) (neg (f 26 0)))) (sum (c 5) (neg (f 26 0)))) (sum (c 6) (neg (f 26 0)))) (sum (c 7) (neg (f 26
  0)))) (sum (a 6 0) (neg (sum (sum (a 7 0) (scaled (a 6 1) 2)) (scaled (a 7 1) 1024))))

/-- `circuit_description:18251-18378` -/
def gate128 : Expr :=
  prod (prod (prod (prod (prod (prod (prod (f 26 0) (sum (c 1) (neg (f 26 0)))) (sum (c 2) (neg (f 26 0))))
  (sum (c 3) (neg (f 26 0)))) (sum (c 5) (neg (f 26 0)))) (sum (c 6) (neg (f 26 0)))) (sum (c 7) (neg (f 26
  0)))) (prod (a 8 0) (sum (c 1) (neg (a 8 0))))

/-- `circuit_description:18379-18513` -/
def gate129 : Expr :=
  prod (prod (prod (prod (prod (prod (prod (f 26 0) (sum (c 1) (neg (f 26 0)))) (sum (c 2) (neg (f 26 0))))
  (sum (c 3) (neg (f 26 0)))) (sum (c 5) (neg (f 26 0)))) (sum (c 6) (neg (f 26 0)))) (sum (c 7) (neg (f 26
  0)))) (sum (a 6 0) (neg (sum (a 7 0) (scaled (a 8 0) 32))))

/-- `circuit_description:18514-18660` -/
def gate130 : Expr :=
  prod (prod (prod (prod (prod (prod (prod (f 26 0) (sum (c 1) (neg (f 26 0)))) (sum (c 2) (neg (f 26 0))))
  (sum (c 3) (neg (f 26 0)))) (sum (c 4) (neg (f 26 0)))) (sum (c 6) (neg (f 26 0)))) (sum (c 7) (neg (f 26
  0)))) (sum (sum (sum (a 8 0) (scaled (a 7 0)
  0x400000000000000000000000000000000000000000000000000000000000000)) (scaled (a 7 1)
  0x4000000000000000000000000000000000000000000000000000000000000000)) (neg (a 6 0)))

/-- `circuit_description:18661-18795` -/
def gate131 : Expr :=
  prod (prod (prod (prod (prod (prod (prod (f 26 0) (sum (c 1) (neg (f 26 0)))) (sum (c 2) (neg (f 26 0))))
  (sum (c 3) (neg (f 26 0)))) (sum (c 4) (neg (f 26 0)))) (sum (c 6) (neg (f 26 0)))) (sum (c 7) (neg (f 26
  0)))) (sum (sum (sum (a 8 0) (c 0x400000000000000000000000000000000)) (neg (c
  0x224698fc094cf91b992d30ed00000001))) (neg (a 8 1)))

/-- `circuit_description:18796-18916` -/
def gate132 : Expr :=
  prod (prod (prod (prod (prod (prod (prod (f 26 0) (sum (c 1) (neg (f 26 0)))) (sum (c 2) (neg (f 26 0))))
  (sum (c 3) (neg (f 26 0)))) (sum (c 4) (neg (f 26 0)))) (sum (c 6) (neg (f 26 0)))) (sum (c 7) (neg (f 26
  0)))) (prod (a 7 1) (a 7 0))

/-- `circuit_description:18917-19037` -/
def gate133 : Expr :=
  prod (prod (prod (prod (prod (prod (prod (f 26 0) (sum (c 1) (neg (f 26 0)))) (sum (c 2) (neg (f 26 0))))
  (sum (c 3) (neg (f 26 0)))) (sum (c 4) (neg (f 26 0)))) (sum (c 6) (neg (f 26 0)))) (sum (c 7) (neg (f 26
  0)))) (prod (a 7 1) (a 9 0))

/-- `circuit_description:19038-19158` -/
def gate134 : Expr :=
  prod (prod (prod (prod (prod (prod (prod (f 26 0) (sum (c 1) (neg (f 26 0)))) (sum (c 2) (neg (f 26 0))))
  (sum (c 3) (neg (f 26 0)))) (sum (c 4) (neg (f 26 0)))) (sum (c 6) (neg (f 26 0)))) (sum (c 7) (neg (f 26
  0)))) (prod (a 7 1) (a 9 1))

/-- `circuit_description:19159-19305` -/
def gate135 : Expr :=
  prod (prod (prod (prod (prod (prod (prod (f 26 0) (sum (c 1) (neg (f 26 0)))) (sum (c 2) (neg (f 26 0))))
  (sum (c 3) (neg (f 26 0)))) (sum (c 4) (neg (f 26 0)))) (sum (c 5) (neg (f 26 0)))) (sum (c 7) (neg (f 26
  0)))) (sum (sum (sum (a 7 0) (scaled (a 8 0) 16)) (scaled (a 7 1)
  0x4000000000000000000000000000000000000000000000000000000000000000)) (neg (a 6 0)))

/-- `circuit_description:19306-19452` -/
def gate136 : Expr :=
  prod (prod (prod (prod (prod (prod (prod (f 26 0) (sum (c 1) (neg (f 26 0)))) (sum (c 2) (neg (f 26 0))))
  (sum (c 3) (neg (f 26 0)))) (sum (c 4) (neg (f 26 0)))) (sum (c 5) (neg (f 26 0)))) (sum (c 7) (neg (f 26
  0)))) (sum (sum (sum (sum (a 7 0) (scaled (a 8 0) 16)) (c 0x100000000000000000000000000000000000)) (neg (c
  0x224698fc094cf91b992d30ed00000001))) (neg (a 8 1)))

/-- `circuit_description:19453-19573` -/
def gate137 : Expr :=
  prod (prod (prod (prod (prod (prod (prod (f 26 0) (sum (c 1) (neg (f 26 0)))) (sum (c 2) (neg (f 26 0))))
  (sum (c 3) (neg (f 26 0)))) (sum (c 4) (neg (f 26 0)))) (sum (c 5) (neg (f 26 0)))) (sum (c 7) (neg (f 26
  0)))) (prod (a 7 1) (a 9 0))

/-- `circuit_description:19574-19694` -/
def gate138 : Expr :=
  prod (prod (prod (prod (prod (prod (prod (f 26 0) (sum (c 1) (neg (f 26 0)))) (sum (c 2) (neg (f 26 0))))
  (sum (c 3) (neg (f 26 0)))) (sum (c 4) (neg (f 26 0)))) (sum (c 5) (neg (f 26 0)))) (sum (c 7) (neg (f 26
  0)))) (prod (a 7 1) (a 9 1))

/-- `circuit_description:19695-19841` -/
def gate139 : Expr :=
  prod (prod (prod (prod (prod (prod (prod (f 26 0) (sum (c 1) (neg (f 26 0)))) (sum (c 2) (neg (f 26 0))))
  (sum (c 3) (neg (f 26 0)))) (sum (c 4) (neg (f 26 0)))) (sum (c 5) (neg (f 26 0)))) (sum (c 6) (neg (f 26
  0)))) (sum (sum (sum (a 7 0) (scaled (a 8 0) 256)) (scaled (a 9 0) 0x400000000000000)) (neg (a 6 0)))

/-- `circuit_description:19842-19988` -/
def gate140 : Expr :=
  prod (prod (prod (prod (prod (prod (prod (f 27 0) (sum (c 2) (neg (f 27 0)))) (sum (c 3) (neg (f 27 0))))
  (sum (c 4) (neg (f 27 0)))) (sum (c 5) (neg (f 27 0)))) (sum (c 6) (neg (f 27 0)))) (sum (c 7) (neg (f 27
  0)))) (sum (sum (sum (a 7 0) (scaled (a 8 0) 16)) (scaled (a 7 1)
  0x4000000000000000000000000000000000000000000000000000000000000000)) (neg (a 6 0)))

/-- `circuit_description:19989-20135` -/
def gate141 : Expr :=
  prod (prod (prod (prod (prod (prod (prod (f 27 0) (sum (c 2) (neg (f 27 0)))) (sum (c 3) (neg (f 27 0))))
  (sum (c 4) (neg (f 27 0)))) (sum (c 5) (neg (f 27 0)))) (sum (c 6) (neg (f 27 0)))) (sum (c 7) (neg (f 27
  0)))) (sum (sum (sum (sum (a 7 0) (scaled (a 8 0) 16)) (c 0x100000000000000000000000000000000000)) (neg (c
  0x224698fc094cf91b992d30ed00000001))) (neg (a 8 1)))

/-- `circuit_description:20136-20256` -/
def gate142 : Expr :=
  prod (prod (prod (prod (prod (prod (prod (f 27 0) (sum (c 2) (neg (f 27 0)))) (sum (c 3) (neg (f 27 0))))
  (sum (c 4) (neg (f 27 0)))) (sum (c 5) (neg (f 27 0)))) (sum (c 6) (neg (f 27 0)))) (sum (c 7) (neg (f 27
  0)))) (prod (a 7 1) (a 9 0))

/-- `circuit_description:20257-20377` -/
def gate143 : Expr :=
  prod (prod (prod (prod (prod (prod (prod (f 27 0) (sum (c 2) (neg (f 27 0)))) (sum (c 3) (neg (f 27 0))))
  (sum (c 4) (neg (f 27 0)))) (sum (c 5) (neg (f 27 0)))) (sum (c 6) (neg (f 27 0)))) (sum (c 7) (neg (f 27
  0)))) (prod (a 7 1) (a 9 1))

/-- `circuit_description:20378-20536` -/
def gate144 : Expr :=
  prod (prod (prod (prod (prod (prod (prod (f 27 0) (sum (c 1) (neg (f 27 0)))) (sum (c 3) (neg (f 27 0))))
  (sum (c 4) (neg (f 27 0)))) (sum (c 5) (neg (f 27 0)))) (sum (c 6) (neg (f 27 0)))) (sum (c 7) (neg (f 27
  0)))) (sum (sum (sum (sum (a 7 0) (scaled (a 8 0) 512)) (scaled (a 6 1)
  0x200000000000000000000000000000000000000000000000000000000000000)) (scaled (a 7 1)
  0x4000000000000000000000000000000000000000000000000000000000000000)) (neg (a 6 0)))

/-- `circuit_description:20537-20683` -/
def gate145 : Expr :=
  prod (prod (prod (prod (prod (prod (prod (f 27 0) (sum (c 1) (neg (f 27 0)))) (sum (c 3) (neg (f 27 0))))
  (sum (c 4) (neg (f 27 0)))) (sum (c 5) (neg (f 27 0)))) (sum (c 6) (neg (f 27 0)))) (sum (c 7) (neg (f 27
  0)))) (sum (sum (sum (sum (a 7 0) (scaled (a 8 0) 512)) (c 0x400000000000000000000000000000000)) (neg (c
  0x224698fc094cf91b992d30ed00000001))) (neg (a 8 1)))

/-- `circuit_description:20684-20804` -/
def gate146 : Expr :=
  prod (prod (prod (prod (prod (prod (prod (f 27 0) (sum (c 1) (neg (f 27 0)))) (sum (c 3) (neg (f 27 0))))
  (sum (c 4) (neg (f 27 0)))) (sum (c 5) (neg (f 27 0)))) (sum (c 6) (neg (f 27 0)))) (sum (c 7) (neg (f 27
  0)))) (prod (a 7 1) (a 6 1))

/-- `circuit_description:20805-20925` -/
def gate147 : Expr :=
  prod (prod (prod (prod (prod (prod (prod (f 27 0) (sum (c 1) (neg (f 27 0)))) (sum (c 3) (neg (f 27 0))))
  (sum (c 4) (neg (f 27 0)))) (sum (c 5) (neg (f 27 0)))) (sum (c 6) (neg (f 27 0)))) (sum (c 7) (neg (f 27
  0)))) (prod (a 7 1) (a 9 0))

/-- `circuit_description:20926-21046` -/
def gate148 : Expr :=
  prod (prod (prod (prod (prod (prod (prod (f 27 0) (sum (c 1) (neg (f 27 0)))) (sum (c 3) (neg (f 27 0))))
  (sum (c 4) (neg (f 27 0)))) (sum (c 5) (neg (f 27 0)))) (sum (c 6) (neg (f 27 0)))) (sum (c 7) (neg (f 27
  0)))) (prod (a 7 1) (a 9 1))

/-- `circuit_description:21047-21174` -/
def gate149 : Expr :=
  prod (prod (prod (prod (prod (prod (prod (f 27 0) (sum (c 1) (neg (f 27 0)))) (sum (c 2) (neg (f 27 0))))
  (sum (c 4) (neg (f 27 0)))) (sum (c 5) (neg (f 27 0)))) (sum (c 6) (neg (f 27 0)))) (sum (c 7) (neg (f 27
  0)))) (prod (a 9 0) (sum (c 1) (neg (a 9 0))))

/-- `circuit_description:21175-21321` -/
def gate150 : Expr :=
  prod (prod (prod (prod (prod (prod (prod (f 27 0) (sum (c 1) (neg (f 27 0)))) (sum (c 2) (neg (f 27 0))))
  (sum (c 4) (neg (f 27 0)))) (sum (c 5) (neg (f 27 0)))) (sum (c 6) (neg (f 27 0)))) (sum (c 7) (neg (f 27
  0)))) (sum (a 5 1) (neg (sum (sum (a 6 0) (scaled (a 7 0) 2)) (scaled (a 6 1) 1024))))

/-- `circuit_description:21322-21468` -/
def gate151 : Expr :=
  prod (prod (prod (prod (prod (prod (prod (f 27 0) (sum (c 1) (neg (f 27 0)))) (sum (c 2) (neg (f 27 0))))
  (sum (c 4) (neg (f 27 0)))) (sum (c 5) (neg (f 27 0)))) (sum (c 6) (neg (f 27 0)))) (sum (c 7) (neg (f 27
  0)))) (sum (a 5 0) (neg (sum (sum (a 5 1) (scaled (a 8 0)
  0x400000000000000000000000000000000000000000000000000000000000000)) (scaled (a 9 0)
  0x4000000000000000000000000000000000000000000000000000000000000000))))

/-- `circuit_description:21469-21603` -/
def gate152 : Expr :=
  prod (prod (prod (prod (prod (prod (prod (f 27 0) (sum (c 1) (neg (f 27 0)))) (sum (c 2) (neg (f 27 0))))
  (sum (c 4) (neg (f 27 0)))) (sum (c 5) (neg (f 27 0)))) (sum (c 6) (neg (f 27 0)))) (sum (c 7) (neg (f 27
  0)))) (sum (sum (sum (a 5 1) (c 0x400000000000000000000000000000000)) (neg (c
  0x224698fc094cf91b992d30ed00000001))) (neg (a 8 1)))

/-- `circuit_description:21604-21724` -/
def gate153 : Expr :=
  prod (prod (prod (prod (prod (prod (prod (f 27 0) (sum (c 1) (neg (f 27 0)))) (sum (c 2) (neg (f 27 0))))
  (sum (c 4) (neg (f 27 0)))) (sum (c 5) (neg (f 27 0)))) (sum (c 6) (neg (f 27 0)))) (sum (c 7) (neg (f 27
  0)))) (prod (a 9 0) (a 8 0))

/-- `circuit_description:21725-21845` -/
def gate154 : Expr :=
  prod (prod (prod (prod (prod (prod (prod (f 27 0) (sum (c 1) (neg (f 27 0)))) (sum (c 2) (neg (f 27 0))))
  (sum (c 4) (neg (f 27 0)))) (sum (c 5) (neg (f 27 0)))) (sum (c 6) (neg (f 27 0)))) (sum (c 7) (neg (f 27
  0)))) (prod (a 9 0) (a 7 1))

/-- `circuit_description:21846-21966` -/
def gate155 : Expr :=
  prod (prod (prod (prod (prod (prod (prod (f 27 0) (sum (c 1) (neg (f 27 0)))) (sum (c 2) (neg (f 27 0))))
  (sum (c 4) (neg (f 27 0)))) (sum (c 5) (neg (f 27 0)))) (sum (c 6) (neg (f 27 0)))) (sum (c 7) (neg (f 27
  0)))) (prod (a 9 0) (a 9 1))

/-- `circuit_description:21967-22094` -/
def gate156 : Expr :=
  prod (prod (prod (prod (prod (prod (prod (f 27 0) (sum (c 1) (neg (f 27 0)))) (sum (c 2) (neg (f 27 0))))
  (sum (c 3) (neg (f 27 0)))) (sum (c 5) (neg (f 27 0)))) (sum (c 6) (neg (f 27 0)))) (sum (c 7) (neg (f 27
  0)))) (prod (a 8 0) (sum (c 1) (neg (a 8 0))))

/-- `circuit_description:22095-22222` -/
def gate157 : Expr :=
  prod (prod (prod (prod (prod (prod (prod (f 27 0) (sum (c 1) (neg (f 27 0)))) (sum (c 2) (neg (f 27 0))))
  (sum (c 3) (neg (f 27 0)))) (sum (c 5) (neg (f 27 0)))) (sum (c 6) (neg (f 27 0)))) (sum (c 7) (neg (f 27
  0)))) (prod (a 7 1) (sum (c 1) (neg (a 7 1))))

/-- `circuit_description:22223-22381` -/
def gate158 : Expr :=
  prod (prod (prod (prod (prod (prod (prod (f 27 0) (sum (c 1) (neg (f 27 0)))) (sum (c 2) (neg (f 27 0))))
  (sum (c 3) (neg (f 27 0)))) (sum (c 5) (neg (f 27 0)))) (sum (c 6) (neg (f 27 0)))) (sum (c 7) (neg (f 27
  0)))) (sum (a 6 0) (neg (sum (sum (sum (a 7 0) (scaled (a 8 0) 16)) (scaled (a 7 1) 32)) (scaled (a 8 1)
  64))))

/-- `circuit_description:22382-22509` -/
def gate159 : Expr :=
  prod (prod (prod (prod (prod (prod (prod (f 27 0) (sum (c 1) (neg (f 27 0)))) (sum (c 2) (neg (f 27 0))))
  (sum (c 3) (neg (f 27 0)))) (sum (c 4) (neg (f 27 0)))) (sum (c 6) (neg (f 27 0)))) (sum (c 7) (neg (f 27
  0)))) (prod (a 7 0) (sum (c 1) (neg (a 7 0))))

/-- `circuit_description:22510-22637` -/
def gate160 : Expr :=
  prod (prod (prod (prod (prod (prod (prod (f 27 0) (sum (c 1) (neg (f 27 0)))) (sum (c 2) (neg (f 27 0))))
  (sum (c 3) (neg (f 27 0)))) (sum (c 4) (neg (f 27 0)))) (sum (c 6) (neg (f 27 0)))) (sum (c 7) (neg (f 27
  0)))) (prod (a 8 0) (sum (c 1) (neg (a 8 0))))

/-- `circuit_description:22638-22796` -/
def gate161 : Expr :=
  prod (prod (prod (prod (prod (prod (prod (f 27 0) (sum (c 1) (neg (f 27 0)))) (sum (c 2) (neg (f 27 0))))
  (sum (c 3) (neg (f 27 0)))) (sum (c 4) (neg (f 27 0)))) (sum (c 6) (neg (f 27 0)))) (sum (c 7) (neg (f 27
  0)))) (sum (a 6 0) (neg (sum (sum (sum (a 7 0) (scaled (a 8 0) 2)) (scaled (a 7 1) 4)) (scaled (a 8 1)
  1024))))

/-- `circuit_description:22797-22931` -/
def gate162 : Expr :=
  prod (prod (prod (prod (prod (prod (prod (f 27 0) (sum (c 1) (neg (f 27 0)))) (sum (c 2) (neg (f 27 0))))
  (sum (c 3) (neg (f 27 0)))) (sum (c 4) (neg (f 27 0)))) (sum (c 5) (neg (f 27 0)))) (sum (c 7) (neg (f 27
  0)))) (sum (a 6 0) (neg (sum (a 7 0) (scaled (a 8 0) 64))))

/-- `circuit_description:22932-23059` -/
def gate163 : Expr :=
  prod (prod (prod (prod (prod (prod (prod (f 27 0) (sum (c 1) (neg (f 27 0)))) (sum (c 2) (neg (f 27 0))))
  (sum (c 3) (neg (f 27 0)))) (sum (c 4) (neg (f 27 0)))) (sum (c 5) (neg (f 27 0)))) (sum (c 6) (neg (f 27
  0)))) (prod (a 7 0) (sum (c 1) (neg (a 7 0))))

/-- `circuit_description:23060-23206` -/
def gate164 : Expr :=
  prod (prod (prod (prod (prod (prod (prod (f 27 0) (sum (c 1) (neg (f 27 0)))) (sum (c 2) (neg (f 27 0))))
  (sum (c 3) (neg (f 27 0)))) (sum (c 4) (neg (f 27 0)))) (sum (c 5) (neg (f 27 0)))) (sum (c 6) (neg (f 27
  0)))) (sum (a 6 0) (neg (sum (sum (a 7 0) (scaled (a 6 1) 2)) (scaled (a 7 1) 1024))))

/-- `circuit_description:23207-23334` -/
def gate165 : Expr :=
  prod (prod (prod (prod (prod (prod (prod (f 28 0) (sum (c 2) (neg (f 28 0)))) (sum (c 3) (neg (f 28 0))))
  (sum (c 4) (neg (f 28 0)))) (sum (c 5) (neg (f 28 0)))) (sum (c 6) (neg (f 28 0)))) (sum (c 7) (neg (f 28
  0)))) (prod (a 8 0) (sum (c 1) (neg (a 8 0))))

/-- `circuit_description:23335-23469` -/
def gate166 : Expr :=
  prod (prod (prod (prod (prod (prod (prod (f 28 0) (sum (c 2) (neg (f 28 0)))) (sum (c 3) (neg (f 28 0))))
  (sum (c 4) (neg (f 28 0)))) (sum (c 5) (neg (f 28 0)))) (sum (c 6) (neg (f 28 0)))) (sum (c 7) (neg (f 28
  0)))) (sum (a 6 0) (neg (sum (a 7 0) (scaled (a 8 0) 32))))

/-- `circuit_description:23470-23616` -/
def gate167 : Expr :=
  prod (prod (prod (prod (prod (prod (prod (f 28 0) (sum (c 1) (neg (f 28 0)))) (sum (c 3) (neg (f 28 0))))
  (sum (c 4) (neg (f 28 0)))) (sum (c 5) (neg (f 28 0)))) (sum (c 6) (neg (f 28 0)))) (sum (c 7) (neg (f 28
  0)))) (sum (sum (sum (a 8 0) (scaled (a 7 0)
  0x400000000000000000000000000000000000000000000000000000000000000)) (scaled (a 7 1)
  0x4000000000000000000000000000000000000000000000000000000000000000)) (neg (a 6 0)))

/-- `circuit_description:23617-23751` -/
def gate168 : Expr :=
  prod (prod (prod (prod (prod (prod (prod (f 28 0) (sum (c 1) (neg (f 28 0)))) (sum (c 3) (neg (f 28 0))))
  (sum (c 4) (neg (f 28 0)))) (sum (c 5) (neg (f 28 0)))) (sum (c 6) (neg (f 28 0)))) (sum (c 7) (neg (f 28
  0)))) (sum (sum (sum (a 8 0) (c 0x400000000000000000000000000000000)) (neg (c
  0x224698fc094cf91b992d30ed00000001))) (neg (a 8 1)))

/-- `circuit_description:23752-23872` -/
def gate169 : Expr :=
  prod (prod (prod (prod (prod (prod (prod (f 28 0) (sum (c 1) (neg (f 28 0)))) (sum (c 3) (neg (f 28 0))))
  (sum (c 4) (neg (f 28 0)))) (sum (c 5) (neg (f 28 0)))) (sum (c 6) (neg (f 28 0)))) (sum (c 7) (neg (f 28
  0)))) (prod (a 7 1) (a 7 0))

/-- `circuit_description:23873-23993` -/
def gate170 : Expr :=
  prod (prod (prod (prod (prod (prod (prod (f 28 0) (sum (c 1) (neg (f 28 0)))) (sum (c 3) (neg (f 28 0))))
  (sum (c 4) (neg (f 28 0)))) (sum (c 5) (neg (f 28 0)))) (sum (c 6) (neg (f 28 0)))) (sum (c 7) (neg (f 28
  0)))) (prod (a 7 1) (a 9 0))

/-- `circuit_description:23994-24114` -/
def gate171 : Expr :=
  prod (prod (prod (prod (prod (prod (prod (f 28 0) (sum (c 1) (neg (f 28 0)))) (sum (c 3) (neg (f 28 0))))
  (sum (c 4) (neg (f 28 0)))) (sum (c 5) (neg (f 28 0)))) (sum (c 6) (neg (f 28 0)))) (sum (c 7) (neg (f 28
  0)))) (prod (a 7 1) (a 9 1))

/-- `circuit_description:24115-24261` -/
def gate172 : Expr :=
  prod (prod (prod (prod (prod (prod (prod (f 28 0) (sum (c 1) (neg (f 28 0)))) (sum (c 2) (neg (f 28 0))))
  (sum (c 4) (neg (f 28 0)))) (sum (c 5) (neg (f 28 0)))) (sum (c 6) (neg (f 28 0)))) (sum (c 7) (neg (f 28
  0)))) (sum (sum (sum (a 7 0) (scaled (a 8 0) 16)) (scaled (a 7 1)
  0x4000000000000000000000000000000000000000000000000000000000000000)) (neg (a 6 0)))

/-- `circuit_description:24262-24408` -/
def gate173 : Expr :=
  prod (prod (prod (prod (prod (prod (prod (f 28 0) (sum (c 1) (neg (f 28 0)))) (sum (c 2) (neg (f 28 0))))
  (sum (c 4) (neg (f 28 0)))) (sum (c 5) (neg (f 28 0)))) (sum (c 6) (neg (f 28 0)))) (sum (c 7) (neg (f 28
  0)))) (sum (sum (sum (sum (a 7 0) (scaled (a 8 0) 16)) (c 0x100000000000000000000000000000000000)) (neg (c
  0x224698fc094cf91b992d30ed00000001))) (neg (a 8 1)))

/-- `circuit_description:24409-24529` -/
def gate174 : Expr :=
  prod (prod (prod (prod (prod (prod (prod (f 28 0) (sum (c 1) (neg (f 28 0)))) (sum (c 2) (neg (f 28 0))))
  (sum (c 4) (neg (f 28 0)))) (sum (c 5) (neg (f 28 0)))) (sum (c 6) (neg (f 28 0)))) (sum (c 7) (neg (f 28
  0)))) (prod (a 7 1) (a 9 0))

/-- `circuit_description:24530-24650` -/
def gate175 : Expr :=
  prod (prod (prod (prod (prod (prod (prod (f 28 0) (sum (c 1) (neg (f 28 0)))) (sum (c 2) (neg (f 28 0))))
  (sum (c 4) (neg (f 28 0)))) (sum (c 5) (neg (f 28 0)))) (sum (c 6) (neg (f 28 0)))) (sum (c 7) (neg (f 28
  0)))) (prod (a 7 1) (a 9 1))

/-- `circuit_description:24651-24797` -/
def gate176 : Expr :=
  prod (prod (prod (prod (prod (prod (prod (f 28 0) (sum (c 1) (neg (f 28 0)))) (sum (c 2) (neg (f 28 0))))
  (sum (c 3) (neg (f 28 0)))) (sum (c 5) (neg (f 28 0)))) (sum (c 6) (neg (f 28 0)))) (sum (c 7) (neg (f 28
  0)))) (sum (sum (sum (a 7 0) (scaled (a 8 0) 256)) (scaled (a 9 0) 0x400000000000000)) (neg (a 6 0)))

/-- `circuit_description:24798-24944` -/
def gate177 : Expr :=
  prod (prod (prod (prod (prod (prod (prod (f 28 0) (sum (c 1) (neg (f 28 0)))) (sum (c 2) (neg (f 28 0))))
  (sum (c 3) (neg (f 28 0)))) (sum (c 4) (neg (f 28 0)))) (sum (c 6) (neg (f 28 0)))) (sum (c 7) (neg (f 28
  0)))) (sum (sum (sum (a 7 0) (scaled (a 8 0) 16)) (scaled (a 7 1)
  0x4000000000000000000000000000000000000000000000000000000000000000)) (neg (a 6 0)))

/-- `circuit_description:24945-25091` -/
def gate178 : Expr :=
  prod (prod (prod (prod (prod (prod (prod (f 28 0) (sum (c 1) (neg (f 28 0)))) (sum (c 2) (neg (f 28 0))))
  (sum (c 3) (neg (f 28 0)))) (sum (c 4) (neg (f 28 0)))) (sum (c 6) (neg (f 28 0)))) (sum (c 7) (neg (f 28
  0)))) (sum (sum (sum (sum (a 7 0) (scaled (a 8 0) 16)) (c 0x100000000000000000000000000000000000)) (neg (c
  0x224698fc094cf91b992d30ed00000001))) (neg (a 8 1)))

/-- `circuit_description:25092-25212` -/
def gate179 : Expr :=
  prod (prod (prod (prod (prod (prod (prod (f 28 0) (sum (c 1) (neg (f 28 0)))) (sum (c 2) (neg (f 28 0))))
  (sum (c 3) (neg (f 28 0)))) (sum (c 4) (neg (f 28 0)))) (sum (c 6) (neg (f 28 0)))) (sum (c 7) (neg (f 28
  0)))) (prod (a 7 1) (a 9 0))

/-- `circuit_description:25213-25333` -/
def gate180 : Expr :=
  prod (prod (prod (prod (prod (prod (prod (f 28 0) (sum (c 1) (neg (f 28 0)))) (sum (c 2) (neg (f 28 0))))
  (sum (c 3) (neg (f 28 0)))) (sum (c 4) (neg (f 28 0)))) (sum (c 6) (neg (f 28 0)))) (sum (c 7) (neg (f 28
  0)))) (prod (a 7 1) (a 9 1))

/-- `circuit_description:25334-25492` -/
def gate181 : Expr :=
  prod (prod (prod (prod (prod (prod (prod (f 28 0) (sum (c 1) (neg (f 28 0)))) (sum (c 2) (neg (f 28 0))))
  (sum (c 3) (neg (f 28 0)))) (sum (c 4) (neg (f 28 0)))) (sum (c 5) (neg (f 28 0)))) (sum (c 7) (neg (f 28
  0)))) (sum (sum (sum (sum (a 7 0) (scaled (a 8 0) 512)) (scaled (a 6 1)
  0x200000000000000000000000000000000000000000000000000000000000000)) (scaled (a 7 1)
  0x4000000000000000000000000000000000000000000000000000000000000000)) (neg (a 6 0)))

/-- `circuit_description:25493-25639` -/
def gate182 : Expr :=
  prod (prod (prod (prod (prod (prod (prod (f 28 0) (sum (c 1) (neg (f 28 0)))) (sum (c 2) (neg (f 28 0))))
  (sum (c 3) (neg (f 28 0)))) (sum (c 4) (neg (f 28 0)))) (sum (c 5) (neg (f 28 0)))) (sum (c 7) (neg (f 28
  0)))) (sum (sum (sum (sum (a 7 0) (scaled (a 8 0) 512)) (c 0x400000000000000000000000000000000)) (neg (c
  0x224698fc094cf91b992d30ed00000001))) (neg (a 8 1)))

/-- `circuit_description:25640-25760` -/
def gate183 : Expr :=
  prod (prod (prod (prod (prod (prod (prod (f 28 0) (sum (c 1) (neg (f 28 0)))) (sum (c 2) (neg (f 28 0))))
  (sum (c 3) (neg (f 28 0)))) (sum (c 4) (neg (f 28 0)))) (sum (c 5) (neg (f 28 0)))) (sum (c 7) (neg (f 28
  0)))) (prod (a 7 1) (a 6 1))

/-- `circuit_description:25761-25881` -/
def gate184 : Expr :=
  prod (prod (prod (prod (prod (prod (prod (f 28 0) (sum (c 1) (neg (f 28 0)))) (sum (c 2) (neg (f 28 0))))
  (sum (c 3) (neg (f 28 0)))) (sum (c 4) (neg (f 28 0)))) (sum (c 5) (neg (f 28 0)))) (sum (c 7) (neg (f 28
  0)))) (prod (a 7 1) (a 9 0))

/-- `circuit_description:25882-26002` -/
def gate185 : Expr :=
  prod (prod (prod (prod (prod (prod (prod (f 28 0) (sum (c 1) (neg (f 28 0)))) (sum (c 2) (neg (f 28 0))))
  (sum (c 3) (neg (f 28 0)))) (sum (c 4) (neg (f 28 0)))) (sum (c 5) (neg (f 28 0)))) (sum (c 7) (neg (f 28
  0)))) (prod (a 7 1) (a 9 1))

/-- `circuit_description:26003-26130` -/
def gate186 : Expr :=
  prod (prod (prod (prod (prod (prod (prod (f 28 0) (sum (c 1) (neg (f 28 0)))) (sum (c 2) (neg (f 28 0))))
  (sum (c 3) (neg (f 28 0)))) (sum (c 4) (neg (f 28 0)))) (sum (c 5) (neg (f 28 0)))) (sum (c 6) (neg (f 28
  0)))) (prod (a 9 0) (sum (c 1) (neg (a 9 0))))

/-- `circuit_description:26131-26277` -/
def gate187 : Expr :=
  prod (prod (prod (prod (prod (prod (prod (f 28 0) (sum (c 1) (neg (f 28 0)))) (sum (c 2) (neg (f 28 0))))
  (sum (c 3) (neg (f 28 0)))) (sum (c 4) (neg (f 28 0)))) (sum (c 5) (neg (f 28 0)))) (sum (c 6) (neg (f 28
  0)))) (sum (a 5 1) (neg (sum (sum (a 6 0) (scaled (a 7 0) 2)) (scaled (a 6 1) 1024))))

/-- `circuit_description:26278-26424` -/
def gate188 : Expr :=
  prod (prod (prod (prod (prod (prod (prod (f 28 0) (sum (c 1) (neg (f 28 0)))) (sum (c 2) (neg (f 28 0))))
  (sum (c 3) (neg (f 28 0)))) (sum (c 4) (neg (f 28 0)))) (sum (c 5) (neg (f 28 0)))) (sum (c 6) (neg (f 28
  0)))) (sum (a 5 0) (neg (sum (sum (a 5 1) (scaled (a 8 0)
  0x400000000000000000000000000000000000000000000000000000000000000)) (scaled (a 9 0)
  0x4000000000000000000000000000000000000000000000000000000000000000))))

/-- `circuit_description:26425-26559` -/
def gate189 : Expr :=
  prod (prod (prod (prod (prod (prod (prod (f 28 0) (sum (c 1) (neg (f 28 0)))) (sum (c 2) (neg (f 28 0))))
  (sum (c 3) (neg (f 28 0)))) (sum (c 4) (neg (f 28 0)))) (sum (c 5) (neg (f 28 0)))) (sum (c 6) (neg (f 28
  0)))) (sum (sum (sum (a 5 1) (c 0x400000000000000000000000000000000)) (neg (c
  0x224698fc094cf91b992d30ed00000001))) (neg (a 8 1)))

/-- `circuit_description:26560-26680` -/
def gate190 : Expr :=
  prod (prod (prod (prod (prod (prod (prod (f 28 0) (sum (c 1) (neg (f 28 0)))) (sum (c 2) (neg (f 28 0))))
  (sum (c 3) (neg (f 28 0)))) (sum (c 4) (neg (f 28 0)))) (sum (c 5) (neg (f 28 0)))) (sum (c 6) (neg (f 28
  0)))) (prod (a 9 0) (a 8 0))

/-- `circuit_description:26681-26801` -/
def gate191 : Expr :=
  prod (prod (prod (prod (prod (prod (prod (f 28 0) (sum (c 1) (neg (f 28 0)))) (sum (c 2) (neg (f 28 0))))
  (sum (c 3) (neg (f 28 0)))) (sum (c 4) (neg (f 28 0)))) (sum (c 5) (neg (f 28 0)))) (sum (c 6) (neg (f 28
  0)))) (prod (a 9 0) (a 7 1))

/-- `circuit_description:26802-26922` -/
def gate192 : Expr :=
  prod (prod (prod (prod (prod (prod (prod (f 28 0) (sum (c 1) (neg (f 28 0)))) (sum (c 2) (neg (f 28 0))))
  (sum (c 3) (neg (f 28 0)))) (sum (c 4) (neg (f 28 0)))) (sum (c 5) (neg (f 28 0)))) (sum (c 6) (neg (f 28
  0)))) (prod (a 9 0) (a 9 1))

end Orchard.Pinned
