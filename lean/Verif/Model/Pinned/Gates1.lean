import Verif.Model.Pinned.Expr

/-!
# The constraint system pinned in `/repo/src/circuit_description` (lines 1-26923), part 1

Generated from the file: `gates: [...]` in order, each expression as it stands there, without the
`query_index` of the queries.
-/

namespace Orchard.Pinned

open Expr

/-- `circuit_description:15-141` -/
def gate0 : Expr :=
  prod (prod (prod (prod (prod (prod (f 18 0) (sum (c 2) (neg (f 18 0)))) (sum (c 3) (neg (f 18 0)))) (sum (c
  4) (neg (f 18 0)))) (sum (c 5) (neg (f 18 0)))) (sum (c 6) (neg (f 18 0)))) (sum (sum (a 0 0) (neg (a 1
  0))) (neg (prod (a 2 0) (a 3 0))))

/-- `circuit_description:142-257` -/
def gate1 : Expr :=
  prod (prod (prod (prod (prod (prod (f 18 0) (sum (c 2) (neg (f 18 0)))) (sum (c 3) (neg (f 18 0)))) (sum (c
  4) (neg (f 18 0)))) (sum (c 5) (neg (f 18 0)))) (sum (c 6) (neg (f 18 0)))) (prod (a 0 0) (sum (a 4 0) (neg
  (a 5 0))))

/-- `circuit_description:258-369` -/
def gate2 : Expr :=
  prod (prod (prod (prod (prod (prod (f 18 0) (sum (c 2) (neg (f 18 0)))) (sum (c 3) (neg (f 18 0)))) (sum (c
  4) (neg (f 18 0)))) (sum (c 5) (neg (f 18 0)))) (sum (c 6) (neg (f 18 0)))) (prod (a 0 0) (sum (c 1) (neg
  (a 6 0))))

/-- `circuit_description:370-481` -/
def gate3 : Expr :=
  prod (prod (prod (prod (prod (prod (f 18 0) (sum (c 2) (neg (f 18 0)))) (sum (c 3) (neg (f 18 0)))) (sum (c
  4) (neg (f 18 0)))) (sum (c 5) (neg (f 18 0)))) (sum (c 6) (neg (f 18 0)))) (prod (a 1 0) (sum (c 1) (neg
  (a 7 0))))

/-- `circuit_description:482-597` -/
def gate4 : Expr :=
  prod (prod (prod (prod (prod (prod (f 18 0) (sum (c 1) (neg (f 18 0)))) (sum (c 3) (neg (f 18 0)))) (sum (c
  4) (neg (f 18 0)))) (sum (c 5) (neg (f 18 0)))) (sum (c 6) (neg (f 18 0)))) (sum (sum (a 7 0) (a 8 0)) (neg
  (a 6 0)))

/-- `circuit_description:598-716` -/
def gate5 : Expr :=
  prod (prod (prod (prod (prod (prod (f 18 0) (sum (c 1) (neg (f 18 0)))) (sum (c 2) (neg (f 18 0)))) (sum (c
  4) (neg (f 18 0)))) (sum (c 5) (neg (f 18 0)))) (sum (c 6) (neg (f 18 0)))) (sum (prod (scaled (a 9 (-1))
  1024) (a 9 1)) (neg (a 9 0)))

/-- `circuit_description:717-834` -/
def gate6 : Expr :=
  prod (prod (prod (prod (prod (f 19 0) (sum (c 2) (neg (f 19 0)))) (sum (c 3) (neg (f 19 0)))) (sum (c 4)
  (neg (f 19 0)))) (a 0 0)) (sum (sum (prod (a 1 0) (a 1 0)) (neg (prod (prod (a 0 0) (a 0 0)) (a 0 0))))
  (neg (c 5)))

/-- `circuit_description:835-952` -/
def gate7 : Expr :=
  prod (prod (prod (prod (prod (f 19 0) (sum (c 2) (neg (f 19 0)))) (sum (c 3) (neg (f 19 0)))) (sum (c 4)
  (neg (f 19 0)))) (a 1 0)) (sum (sum (prod (a 1 0) (a 1 0)) (neg (prod (prod (a 0 0) (a 0 0)) (a 0 0))))
  (neg (c 5)))

/-- `circuit_description:953-1061` -/
def gate8 : Expr :=
  prod (prod (prod (prod (f 19 0) (sum (c 1) (neg (f 19 0)))) (sum (c 3) (neg (f 19 0)))) (sum (c 4) (neg (f
  19 0)))) (sum (sum (prod (a 1 0) (a 1 0)) (neg (prod (prod (a 0 0) (a 0 0)) (a 0 0)))) (neg (c 5)))

/-- `circuit_description:1062-1225` -/
def gate9 : Expr :=
  prod (prod (prod (prod (f 19 0) (sum (c 1) (neg (f 19 0)))) (sum (c 2) (neg (f 19 0)))) (sum (c 4) (neg (f
  19 0)))) (sum (prod (prod (sum (sum (a 2 1) (a 2 0)) (a 0 0)) (sum (a 0 0) (neg (a 2 0)))) (sum (a 0 0)
  (neg (a 2 0)))) (neg (prod (sum (a 1 0) (neg (a 3 0))) (sum (a 1 0) (neg (a 3 0))))))

/-- `circuit_description:1226-1360` -/
def gate10 : Expr :=
  prod (prod (prod (prod (f 19 0) (sum (c 1) (neg (f 19 0)))) (sum (c 2) (neg (f 19 0)))) (sum (c 4) (neg (f
  19 0)))) (sum (prod (sum (a 3 1) (a 3 0)) (sum (a 0 0) (neg (a 2 0)))) (neg (prod (sum (a 1 0) (neg (a 3
  0))) (sum (a 2 0) (neg (a 2 1))))))

/-- `circuit_description:1361-1486` -/
def gate11 : Expr :=
  prod (prod (prod (prod (f 19 0) (sum (c 1) (neg (f 19 0)))) (sum (c 2) (neg (f 19 0)))) (sum (c 3) (neg (f
  19 0)))) (prod (sum (a 2 0) (neg (a 0 0))) (sum (prod (sum (a 2 0) (neg (a 0 0))) (a 4 0)) (neg (sum (a 3
  0) (neg (a 1 0))))))

/-- `circuit_description:1487-1625` -/
def gate12 : Expr :=
  prod (prod (prod (prod (f 19 0) (sum (c 1) (neg (f 19 0)))) (sum (c 2) (neg (f 19 0)))) (sum (c 3) (neg (f
  19 0)))) (prod (sum (c 1) (neg (prod (sum (a 2 0) (neg (a 0 0))) (a 5 0)))) (sum (prod (prod (c 2) (a 1 0))
  (a 4 0)) (neg (prod (c 3) (prod (a 0 0) (a 0 0))))))

/-- `circuit_description:1626-1769` -/
def gate13 : Expr :=
  prod (prod (prod (prod (f 19 0) (sum (c 1) (neg (f 19 0)))) (sum (c 2) (neg (f 19 0)))) (sum (c 3) (neg (f
  19 0)))) (prod (prod (prod (a 0 0) (a 2 0)) (sum (a 2 0) (neg (a 0 0)))) (sum (sum (sum (prod (a 4 0) (a 4
  0)) (neg (a 0 0))) (neg (a 2 0))) (neg (a 2 1))))

/-- `circuit_description:1770-1913` -/
def gate14 : Expr :=
  prod (prod (prod (prod (f 19 0) (sum (c 1) (neg (f 19 0)))) (sum (c 2) (neg (f 19 0)))) (sum (c 3) (neg (f
  19 0)))) (prod (prod (prod (a 0 0) (a 2 0)) (sum (a 2 0) (neg (a 0 0)))) (sum (sum (prod (a 4 0) (sum (a 0
  0) (neg (a 2 1)))) (neg (a 1 0))) (neg (a 3 1))))

/-- `circuit_description:1914-2055` -/
def gate15 : Expr :=
  prod (prod (prod (prod (f 19 0) (sum (c 1) (neg (f 19 0)))) (sum (c 2) (neg (f 19 0)))) (sum (c 3) (neg (f
  19 0)))) (prod (prod (prod (a 0 0) (a 2 0)) (sum (a 3 0) (a 1 0))) (sum (sum (sum (prod (a 4 0) (a 4 0))
  (neg (a 0 0))) (neg (a 2 0))) (neg (a 2 1))))

/-- `circuit_description:2056-2197` -/
def gate16 : Expr :=
  prod (prod (prod (prod (f 19 0) (sum (c 1) (neg (f 19 0)))) (sum (c 2) (neg (f 19 0)))) (sum (c 3) (neg (f
  19 0)))) (prod (prod (prod (a 0 0) (a 2 0)) (sum (a 3 0) (a 1 0))) (sum (sum (prod (a 4 0) (sum (a 0 0)
  (neg (a 2 1)))) (neg (a 1 0))) (neg (a 3 1))))

/-- `circuit_description:2198-2297` -/
def gate17 : Expr :=
  prod (prod (prod (prod (f 19 0) (sum (c 1) (neg (f 19 0)))) (sum (c 2) (neg (f 19 0)))) (sum (c 3) (neg (f
  19 0)))) (prod (sum (c 1) (neg (prod (a 0 0) (a 6 0)))) (sum (a 2 1) (neg (a 2 0))))

/-- `circuit_description:2298-2397` -/
def gate18 : Expr :=
  prod (prod (prod (prod (f 19 0) (sum (c 1) (neg (f 19 0)))) (sum (c 2) (neg (f 19 0)))) (sum (c 3) (neg (f
  19 0)))) (prod (sum (c 1) (neg (prod (a 0 0) (a 6 0)))) (sum (a 3 1) (neg (a 3 0))))

/-- `circuit_description:2398-2497` -/
def gate19 : Expr :=
  prod (prod (prod (prod (f 19 0) (sum (c 1) (neg (f 19 0)))) (sum (c 2) (neg (f 19 0)))) (sum (c 3) (neg (f
  19 0)))) (prod (sum (c 1) (neg (prod (a 2 0) (a 7 0)))) (sum (a 2 1) (neg (a 0 0))))

/-- `circuit_description:2498-2597` -/
def gate20 : Expr :=
  prod (prod (prod (prod (f 19 0) (sum (c 1) (neg (f 19 0)))) (sum (c 2) (neg (f 19 0)))) (sum (c 3) (neg (f
  19 0)))) (prod (sum (c 1) (neg (prod (a 2 0) (a 7 0)))) (sum (a 3 1) (neg (a 1 0))))

/-- `circuit_description:2598-2726` -/
def gate21 : Expr :=
  prod (prod (prod (prod (f 19 0) (sum (c 1) (neg (f 19 0)))) (sum (c 2) (neg (f 19 0)))) (sum (c 3) (neg (f
  19 0)))) (prod (sum (sum (c 1) (neg (prod (sum (a 2 0) (neg (a 0 0))) (a 5 0)))) (neg (prod (sum (a 3 0) (a
  1 0)) (a 8 0)))) (a 2 1))

/-- `circuit_description:2727-2855` -/
def gate22 : Expr :=
  prod (prod (prod (prod (f 19 0) (sum (c 1) (neg (f 19 0)))) (sum (c 2) (neg (f 19 0)))) (sum (c 3) (neg (f
  19 0)))) (prod (sum (sum (c 1) (neg (prod (sum (a 2 0) (neg (a 0 0))) (a 5 0)))) (neg (prod (sum (a 3 0) (a
  1 0)) (a 8 0)))) (a 3 1))

/-- `circuit_description:2856-3025` -/
def gate23 : Expr :=
  prod (prod (prod (prod (prod (prod (f 18 0) (sum (c 1) (neg (f 18 0)))) (sum (c 2) (neg (f 18 0)))) (sum (c
  3) (neg (f 18 0)))) (sum (c 5) (neg (f 18 0)))) (sum (c 6) (neg (f 18 0)))) (sum (a 4 0) (neg (scaled (prod
  (sum (a 4 1) (a 5 1)) (sum (a 3 1) (neg (sum (sum (prod (a 4 1) (a 4 1)) (neg (a 3 1))) (neg (a 0 1))))))
  0x2000000000000000000000000000000011234c7e04a67c8dcc96987680000001)))

/-- `circuit_description:3026-3132` -/
def gate24 : Expr :=
  prod (prod (prod (prod (prod (prod (f 18 0) (sum (c 1) (neg (f 18 0)))) (sum (c 2) (neg (f 18 0)))) (sum (c
  3) (neg (f 18 0)))) (sum (c 4) (neg (f 18 0)))) (sum (c 6) (neg (f 18 0)))) (sum (a 0 0) (neg (a 0 1)))

/-- `circuit_description:3133-3239` -/
def gate25 : Expr :=
  prod (prod (prod (prod (prod (prod (f 18 0) (sum (c 1) (neg (f 18 0)))) (sum (c 2) (neg (f 18 0)))) (sum (c
  3) (neg (f 18 0)))) (sum (c 4) (neg (f 18 0)))) (sum (c 6) (neg (f 18 0)))) (sum (a 1 0) (neg (a 1 1)))

/-- `circuit_description:3240-3379` -/
def gate26 : Expr :=
  prod (prod (prod (prod (prod (prod (f 18 0) (sum (c 1) (neg (f 18 0)))) (sum (c 2) (neg (f 18 0)))) (sum (c
  3) (neg (f 18 0)))) (sum (c 4) (neg (f 18 0)))) (sum (c 6) (neg (f 18 0)))) (prod (sum (a 9 0) (neg (scaled
  (a 9 (-1)) 2))) (sum (c 1) (neg (sum (a 9 0) (neg (scaled (a 9 (-1)) 2))))))

/-- `circuit_description:3380-3611` -/
def gate27 : Expr :=
  prod (prod (prod (prod (prod (prod (f 18 0) (sum (c 1) (neg (f 18 0)))) (sum (c 2) (neg (f 18 0)))) (sum (c
  3) (neg (f 18 0)))) (sum (c 4) (neg (f 18 0)))) (sum (c 6) (neg (f 18 0)))) (sum (sum (prod (a 4 0) (sum (a
  3 0) (neg (a 0 0)))) (neg (scaled (prod (sum (a 4 0) (a 5 0)) (sum (a 3 0) (neg (sum (sum (prod (a 4 0) (a
  4 0)) (neg (a 3 0))) (neg (a 0 0))))))
  0x2000000000000000000000000000000011234c7e04a67c8dcc96987680000001))) (prod (sum (scaled (sum (a 9 0) (neg
  (scaled (a 9 (-1)) 2))) 2) (neg (c 1))) (a 1 0)))

/-- `circuit_description:3612-3780` -/
def gate28 : Expr :=
  prod (prod (prod (prod (prod (prod (f 18 0) (sum (c 1) (neg (f 18 0)))) (sum (c 2) (neg (f 18 0)))) (sum (c
  3) (neg (f 18 0)))) (sum (c 4) (neg (f 18 0)))) (sum (c 6) (neg (f 18 0)))) (sum (sum (sum (prod (a 5 0) (a
  5 0)) (neg (a 3 1))) (neg (sum (sum (prod (a 4 0) (a 4 0)) (neg (a 3 0))) (neg (a 0 0))))) (neg (a 3 0)))

/-- `circuit_description:3781-4044` -/
def gate29 : Expr :=
  prod (prod (prod (prod (prod (prod (f 18 0) (sum (c 1) (neg (f 18 0)))) (sum (c 2) (neg (f 18 0)))) (sum (c
  3) (neg (f 18 0)))) (sum (c 4) (neg (f 18 0)))) (sum (c 6) (neg (f 18 0)))) (sum (sum (prod (a 5 0) (sum (a
  3 0) (neg (a 3 1)))) (neg (scaled (prod (sum (a 4 0) (a 5 0)) (sum (a 3 0) (neg (sum (sum (prod (a 4 0) (a
  4 0)) (neg (a 3 0))) (neg (a 0 0))))))
  0x2000000000000000000000000000000011234c7e04a67c8dcc96987680000001))) (neg (scaled (prod (sum (a 4 1) (a 5
  1)) (sum (a 3 1) (neg (sum (sum (prod (a 4 1) (a 4 1)) (neg (a 3 1))) (neg (a 0 1))))))
  0x2000000000000000000000000000000011234c7e04a67c8dcc96987680000001)))

/-- `circuit_description:4045-4184` -/
def gate30 : Expr :=
  prod (prod (prod (prod (prod (prod (f 18 0) (sum (c 1) (neg (f 18 0)))) (sum (c 2) (neg (f 18 0)))) (sum (c
  3) (neg (f 18 0)))) (sum (c 4) (neg (f 18 0)))) (sum (c 5) (neg (f 18 0)))) (prod (sum (a 9 0) (neg (scaled
  (a 9 (-1)) 2))) (sum (c 1) (neg (sum (a 9 0) (neg (scaled (a 9 (-1)) 2))))))

/-- `circuit_description:4185-4416` -/
def gate31 : Expr :=
  prod (prod (prod (prod (prod (prod (f 18 0) (sum (c 1) (neg (f 18 0)))) (sum (c 2) (neg (f 18 0)))) (sum (c
  3) (neg (f 18 0)))) (sum (c 4) (neg (f 18 0)))) (sum (c 5) (neg (f 18 0)))) (sum (sum (prod (a 4 0) (sum (a
  3 0) (neg (a 0 0)))) (neg (scaled (prod (sum (a 4 0) (a 5 0)) (sum (a 3 0) (neg (sum (sum (prod (a 4 0) (a
  4 0)) (neg (a 3 0))) (neg (a 0 0))))))
  0x2000000000000000000000000000000011234c7e04a67c8dcc96987680000001))) (prod (sum (scaled (sum (a 9 0) (neg
  (scaled (a 9 (-1)) 2))) 2) (neg (c 1))) (a 1 0)))

/-- `circuit_description:4417-4585` -/
def gate32 : Expr :=
  prod (prod (prod (prod (prod (prod (f 18 0) (sum (c 1) (neg (f 18 0)))) (sum (c 2) (neg (f 18 0)))) (sum (c
  3) (neg (f 18 0)))) (sum (c 4) (neg (f 18 0)))) (sum (c 5) (neg (f 18 0)))) (sum (sum (sum (prod (a 5 0) (a
  5 0)) (neg (a 3 1))) (neg (sum (sum (prod (a 4 0) (a 4 0)) (neg (a 3 0))) (neg (a 0 0))))) (neg (a 3 0)))

/-- `circuit_description:4586-4786` -/
def gate33 : Expr :=
  prod (prod (prod (prod (prod (prod (f 18 0) (sum (c 1) (neg (f 18 0)))) (sum (c 2) (neg (f 18 0)))) (sum (c
  3) (neg (f 18 0)))) (sum (c 4) (neg (f 18 0)))) (sum (c 5) (neg (f 18 0)))) (sum (sum (prod (a 5 0) (sum (a
  3 0) (neg (a 3 1)))) (neg (scaled (prod (sum (a 4 0) (a 5 0)) (sum (a 3 0) (neg (sum (sum (prod (a 4 0) (a
  4 0)) (neg (a 3 0))) (neg (a 0 0))))))
  0x2000000000000000000000000000000011234c7e04a67c8dcc96987680000001))) (neg (a 4 1)))

/-- `circuit_description:4787-4940` -/
def gate34 : Expr :=
  prod (prod (prod (prod (prod (f 20 0) (sum (c 2) (neg (f 20 0)))) (sum (c 3) (neg (f 20 0)))) (sum (c 4)
  (neg (f 20 0)))) (sum (c 5) (neg (f 20 0)))) (sum (a 8 0) (neg (scaled (prod (sum (a 8 1) (a 2 1)) (sum (a
  7 1) (neg (sum (sum (prod (a 8 1) (a 8 1)) (neg (a 7 1))) (neg (a 0 1))))))
  0x2000000000000000000000000000000011234c7e04a67c8dcc96987680000001)))

/-- `circuit_description:4941-5031` -/
def gate35 : Expr :=
  prod (prod (prod (prod (prod (f 20 0) (sum (c 1) (neg (f 20 0)))) (sum (c 3) (neg (f 20 0)))) (sum (c 4)
  (neg (f 20 0)))) (sum (c 5) (neg (f 20 0)))) (sum (a 0 0) (neg (a 0 1)))

/-- `circuit_description:5032-5122` -/
def gate36 : Expr :=
  prod (prod (prod (prod (prod (f 20 0) (sum (c 1) (neg (f 20 0)))) (sum (c 3) (neg (f 20 0)))) (sum (c 4)
  (neg (f 20 0)))) (sum (c 5) (neg (f 20 0)))) (sum (a 1 0) (neg (a 1 1)))

/-- `circuit_description:5123-5246` -/
def gate37 : Expr :=
  prod (prod (prod (prod (prod (f 20 0) (sum (c 1) (neg (f 20 0)))) (sum (c 3) (neg (f 20 0)))) (sum (c 4)
  (neg (f 20 0)))) (sum (c 5) (neg (f 20 0)))) (prod (sum (a 6 0) (neg (scaled (a 6 (-1)) 2))) (sum (c 1)
  (neg (sum (a 6 0) (neg (scaled (a 6 (-1)) 2))))))

/-- `circuit_description:5247-5462` -/
def gate38 : Expr :=
  prod (prod (prod (prod (prod (f 20 0) (sum (c 1) (neg (f 20 0)))) (sum (c 3) (neg (f 20 0)))) (sum (c 4)
  (neg (f 20 0)))) (sum (c 5) (neg (f 20 0)))) (sum (sum (prod (a 8 0) (sum (a 7 0) (neg (a 0 0)))) (neg
  (scaled (prod (sum (a 8 0) (a 2 0)) (sum (a 7 0) (neg (sum (sum (prod (a 8 0) (a 8 0)) (neg (a 7 0))) (neg
  (a 0 0)))))) 0x2000000000000000000000000000000011234c7e04a67c8dcc96987680000001))) (prod (sum (scaled (sum
  (a 6 0) (neg (scaled (a 6 (-1)) 2))) 2) (neg (c 1))) (a 1 0)))

/-- `circuit_description:5463-5615` -/
def gate39 : Expr :=
  prod (prod (prod (prod (prod (f 20 0) (sum (c 1) (neg (f 20 0)))) (sum (c 3) (neg (f 20 0)))) (sum (c 4)
  (neg (f 20 0)))) (sum (c 5) (neg (f 20 0)))) (sum (sum (sum (prod (a 2 0) (a 2 0)) (neg (a 7 1))) (neg (sum
  (sum (prod (a 8 0) (a 8 0)) (neg (a 7 0))) (neg (a 0 0))))) (neg (a 7 0)))

/-- `circuit_description:5616-5863` -/
def gate40 : Expr :=
  prod (prod (prod (prod (prod (f 20 0) (sum (c 1) (neg (f 20 0)))) (sum (c 3) (neg (f 20 0)))) (sum (c 4)
  (neg (f 20 0)))) (sum (c 5) (neg (f 20 0)))) (sum (sum (prod (a 2 0) (sum (a 7 0) (neg (a 7 1)))) (neg
  (scaled (prod (sum (a 8 0) (a 2 0)) (sum (a 7 0) (neg (sum (sum (prod (a 8 0) (a 8 0)) (neg (a 7 0))) (neg
  (a 0 0)))))) 0x2000000000000000000000000000000011234c7e04a67c8dcc96987680000001))) (neg (scaled (prod (sum
  (a 8 1) (a 2 1)) (sum (a 7 1) (neg (sum (sum (prod (a 8 1) (a 8 1)) (neg (a 7 1))) (neg (a 0 1))))))
  0x2000000000000000000000000000000011234c7e04a67c8dcc96987680000001)))

/-- `circuit_description:5864-5987` -/
def gate41 : Expr :=
  prod (prod (prod (prod (prod (f 20 0) (sum (c 1) (neg (f 20 0)))) (sum (c 2) (neg (f 20 0)))) (sum (c 4)
  (neg (f 20 0)))) (sum (c 5) (neg (f 20 0)))) (prod (sum (a 6 0) (neg (scaled (a 6 (-1)) 2))) (sum (c 1)
  (neg (sum (a 6 0) (neg (scaled (a 6 (-1)) 2))))))

/-- `circuit_description:5988-6203` -/
def gate42 : Expr :=
  prod (prod (prod (prod (prod (f 20 0) (sum (c 1) (neg (f 20 0)))) (sum (c 2) (neg (f 20 0)))) (sum (c 4)
  (neg (f 20 0)))) (sum (c 5) (neg (f 20 0)))) (sum (sum (prod (a 8 0) (sum (a 7 0) (neg (a 0 0)))) (neg
  (scaled (prod (sum (a 8 0) (a 2 0)) (sum (a 7 0) (neg (sum (sum (prod (a 8 0) (a 8 0)) (neg (a 7 0))) (neg
  (a 0 0)))))) 0x2000000000000000000000000000000011234c7e04a67c8dcc96987680000001))) (prod (sum (scaled (sum
  (a 6 0) (neg (scaled (a 6 (-1)) 2))) 2) (neg (c 1))) (a 1 0)))

/-- `circuit_description:6204-6356` -/
def gate43 : Expr :=
  prod (prod (prod (prod (prod (f 20 0) (sum (c 1) (neg (f 20 0)))) (sum (c 2) (neg (f 20 0)))) (sum (c 4)
  (neg (f 20 0)))) (sum (c 5) (neg (f 20 0)))) (sum (sum (sum (prod (a 2 0) (a 2 0)) (neg (a 7 1))) (neg (sum
  (sum (prod (a 8 0) (a 8 0)) (neg (a 7 0))) (neg (a 0 0))))) (neg (a 7 0)))

/-- `circuit_description:6357-6541` -/
def gate44 : Expr :=
  prod (prod (prod (prod (prod (f 20 0) (sum (c 1) (neg (f 20 0)))) (sum (c 2) (neg (f 20 0)))) (sum (c 4)
  (neg (f 20 0)))) (sum (c 5) (neg (f 20 0)))) (sum (sum (prod (a 2 0) (sum (a 7 0) (neg (a 7 1)))) (neg
  (scaled (prod (sum (a 8 0) (a 2 0)) (sum (a 7 0) (neg (sum (sum (prod (a 8 0) (a 8 0)) (neg (a 7 0))) (neg
  (a 0 0)))))) 0x2000000000000000000000000000000011234c7e04a67c8dcc96987680000001))) (neg (a 8 1)))

/-- `circuit_description:6542-6669` -/
def gate45 : Expr :=
  prod (prod (prod (prod (prod (f 20 0) (sum (c 1) (neg (f 20 0)))) (sum (c 2) (neg (f 20 0)))) (sum (c 3)
  (neg (f 20 0)))) (sum (c 5) (neg (f 20 0)))) (prod (sum (a 9 1) (neg (prod (c 2) (a 9 (-1))))) (sum (c 1)
  (neg (sum (a 9 1) (neg (prod (c 2) (a 9 (-1))))))))

/-- `circuit_description:6670-6835` -/
def gate46 : Expr :=
  prod (prod (prod (prod (prod (f 20 0) (sum (c 1) (neg (f 20 0)))) (sum (c 2) (neg (f 20 0)))) (sum (c 3)
  (neg (f 20 0)))) (sum (c 5) (neg (f 20 0)))) (sum (prod (sum (a 9 1) (neg (prod (c 2) (a 9 (-1))))) (sum (a
  9 0) (neg (a 1 (-1))))) (prod (sum (c 1) (neg (sum (a 9 1) (neg (prod (c 2) (a 9 (-1))))))) (sum (a 9 0) (a
  1 (-1)))))

/-- `circuit_description:6836-6945` -/
def gate47 : Expr :=
  prod (prod (prod (prod (prod (f 20 0) (sum (c 1) (neg (f 20 0)))) (sum (c 2) (neg (f 20 0)))) (sum (c 3)
  (neg (f 20 0)))) (sum (c 4) (neg (f 20 0)))) (sum (a 8 0) (neg (sum (a 7 0) (prod (a 7 (-1)) (prod (c
  0x10000000000000000000000000000000) (c 64))))))

/-- `circuit_description:6946-7043` -/
def gate48 : Expr :=
  prod (prod (prod (prod (prod (f 20 0) (sum (c 1) (neg (f 20 0)))) (sum (c 2) (neg (f 20 0)))) (sum (c 3)
  (neg (f 20 0)))) (sum (c 4) (neg (f 20 0)))) (sum (sum (a 6 (-1)) (neg (a 7 0))) (neg (c
  0x224698fc0994a8dd8c46eb2100000001)))

/-- `circuit_description:7044-7139` -/
def gate49 : Expr :=
  prod (prod (prod (prod (prod (f 20 0) (sum (c 1) (neg (f 20 0)))) (sum (c 2) (neg (f 20 0)))) (sum (c 3)
  (neg (f 20 0)))) (sum (c 4) (neg (f 20 0)))) (prod (a 7 (-1)) (sum (a 6 0) (neg (c
  0x10000000000000000000000000000000))))

/-- `circuit_description:7140-7228` -/
def gate50 : Expr :=
  prod (prod (prod (prod (prod (f 20 0) (sum (c 1) (neg (f 20 0)))) (sum (c 2) (neg (f 20 0)))) (sum (c 3)
  (neg (f 20 0)))) (sum (c 4) (neg (f 20 0)))) (prod (a 7 (-1)) (a 7 1))

/-- `circuit_description:7229-7349` -/
def gate51 : Expr :=
  prod (prod (prod (prod (prod (f 20 0) (sum (c 1) (neg (f 20 0)))) (sum (c 2) (neg (f 20 0)))) (sum (c 3)
  (neg (f 20 0)))) (sum (c 4) (neg (f 20 0)))) (prod (prod (sum (c 1) (neg (a 7 (-1)))) (sum (c 1) (neg (prod
  (a 6 0) (a 6 1))))) (a 7 1))

/-- `circuit_description:7350-7457` -/
def gate52 : Expr :=
  prod (prod (prod (prod (f 21 0) (sum (c 2) (neg (f 21 0)))) (sum (c 3) (neg (f 21 0)))) (sum (c 4) (neg (f
  21 0)))) (prod (sum (a 9 1) (neg (scaled (a 9 0) 2))) (sum (c 1) (neg (sum (a 9 1) (neg (scaled (a 9 0)
  2))))))

/-- `circuit_description:7458-7594` -/
def gate53 : Expr :=
  prod (prod (prod (prod (f 21 0) (sum (c 2) (neg (f 21 0)))) (sum (c 3) (neg (f 21 0)))) (sum (c 4) (neg (f
  21 0)))) (sum (prod (sum (a 9 1) (neg (scaled (a 9 0) 2))) (a 0 0)) (prod (sum (c 1) (neg (sum (a 9 1) (neg
  (scaled (a 9 0) 2))))) (sum (a 0 0) (neg (a 0 1)))))

/-- `circuit_description:7595-7729` -/
def gate54 : Expr :=
  prod (prod (prod (prod (f 21 0) (sum (c 2) (neg (f 21 0)))) (sum (c 3) (neg (f 21 0)))) (sum (c 4) (neg (f
  21 0)))) (sum (prod (sum (a 9 1) (neg (scaled (a 9 0) 2))) (a 1 0)) (prod (sum (c 1) (neg (sum (a 9 1) (neg
  (scaled (a 9 0) 2))))) (sum (a 1 0) (a 1 1))))

/-- `circuit_description:7730-7969` -/
def gate55 : Expr :=
  prod (f 22 0) (prod (prod (prod (prod (prod (prod (prod (sum (a 4 0) (neg (scaled (a 4 1) 8))) (sum (c 1)
  (neg (sum (a 4 0) (neg (scaled (a 4 1) 8)))))) (sum (c 2) (neg (sum (a 4 0) (neg (scaled (a 4 1) 8))))))
  (sum (c 3) (neg (sum (a 4 0) (neg (scaled (a 4 1) 8)))))) (sum (c 4) (neg (sum (a 4 0) (neg (scaled (a 4 1)
  8)))))) (sum (c 5) (neg (sum (a 4 0) (neg (scaled (a 4 1) 8)))))) (sum (c 6) (neg (sum (a 4 0) (neg (scaled
  (a 4 1) 8)))))) (sum (c 7) (neg (sum (a 4 0) (neg (scaled (a 4 1) 8))))))

/-- `circuit_description:7970-8748` -/
def gate56 : Expr :=
  prod (f 22 0) (sum (sum (sum (sum (sum (sum (sum (sum (sum (c 0) (prod (c 1) (f 3 0))) (prod (prod (c 1)
  (sum (a 4 0) (neg (scaled (a 4 1) 8)))) (f 4 0))) (prod (prod (prod (c 1) (sum (a 4 0) (neg (scaled (a 4 1)
  8)))) (sum (a 4 0) (neg (scaled (a 4 1) 8)))) (f 5 0))) (prod (prod (prod (prod (c 1) (sum (a 4 0) (neg
  (scaled (a 4 1) 8)))) (sum (a 4 0) (neg (scaled (a 4 1) 8)))) (sum (a 4 0) (neg (scaled (a 4 1) 8)))) (f 6
  0))) (prod (prod (prod (prod (prod (c 1) (sum (a 4 0) (neg (scaled (a 4 1) 8)))) (sum (a 4 0) (neg (scaled
  (a 4 1) 8)))) (sum (a 4 0) (neg (scaled (a 4 1) 8)))) (sum (a 4 0) (neg (scaled (a 4 1) 8)))) (f 7 0)))
  (prod (prod (prod (prod (prod (prod (c 1) (sum (a 4 0) (neg (scaled (a 4 1) 8)))) (sum (a 4 0) (neg (scaled
  (a 4 1) 8)))) (sum (a 4 0) (neg (scaled (a 4 1) 8)))) (sum (a 4 0) (neg (scaled (a 4 1) 8)))) (sum (a 4 0)
  (neg (scaled (a 4 1) 8)))) (f 8 0))) (prod (prod (prod (prod (prod (prod (prod (c 1) (sum (a 4 0) (neg
  (scaled (a 4 1) 8)))) (sum (a 4 0) (neg (scaled (a 4 1) 8)))) (sum (a 4 0) (neg (scaled (a 4 1) 8)))) (sum
  (a 4 0) (neg (scaled (a 4 1) 8)))) (sum (a 4 0) (neg (scaled (a 4 1) 8)))) (sum (a 4 0) (neg (scaled (a 4
  1) 8)))) (f 9 0))) (prod (prod (prod (prod (prod (prod (prod (prod (c 1) (sum (a 4 0) (neg (scaled (a 4 1)
  8)))) (sum (a 4 0) (neg (scaled (a 4 1) 8)))) (sum (a 4 0) (neg (scaled (a 4 1) 8)))) (sum (a 4 0) (neg
  (scaled (a 4 1) 8)))) (sum (a 4 0) (neg (scaled (a 4 1) 8)))) (sum (a 4 0) (neg (scaled (a 4 1) 8)))) (sum
  (a 4 0) (neg (scaled (a 4 1) 8)))) (f 10 0))) (neg (a 0 0)))

/-- `circuit_description:8749-8795` -/
def gate57 : Expr :=
  prod (f 22 0) (sum (sum (prod (a 5 0) (a 5 0)) (neg (a 1 0))) (neg (f 11 0)))

/-- `circuit_description:8796-8856` -/
def gate58 : Expr :=
  prod (f 22 0) (sum (sum (prod (a 1 0) (a 1 0)) (neg (prod (prod (a 0 0) (a 0 0)) (a 0 0)))) (neg (c 5)))

/-- `circuit_description:8857-9243` -/
def gate59 : Expr :=
  prod (f 23 0) (sum (sum (sum (sum (sum (sum (sum (sum (sum (c 0) (prod (c 1) (f 3 0))) (prod (prod (c 1) (a
  4 0)) (f 4 0))) (prod (prod (prod (c 1) (a 4 0)) (a 4 0)) (f 5 0))) (prod (prod (prod (prod (c 1) (a 4 0))
  (a 4 0)) (a 4 0)) (f 6 0))) (prod (prod (prod (prod (prod (c 1) (a 4 0)) (a 4 0)) (a 4 0)) (a 4 0)) (f 7
  0))) (prod (prod (prod (prod (prod (prod (c 1) (a 4 0)) (a 4 0)) (a 4 0)) (a 4 0)) (a 4 0)) (f 8 0))) (prod
  (prod (prod (prod (prod (prod (prod (c 1) (a 4 0)) (a 4 0)) (a 4 0)) (a 4 0)) (a 4 0)) (a 4 0)) (f 9 0)))
  (prod (prod (prod (prod (prod (prod (prod (prod (c 1) (a 4 0)) (a 4 0)) (a 4 0)) (a 4 0)) (a 4 0)) (a 4 0))
  (a 4 0)) (f 10 0))) (neg (a 0 0)))

/-- `circuit_description:9244-9290` -/
def gate60 : Expr :=
  prod (f 23 0) (sum (sum (prod (a 5 0) (a 5 0)) (neg (a 1 0))) (neg (f 11 0)))

/-- `circuit_description:9291-9351` -/
def gate61 : Expr :=
  prod (f 23 0) (sum (sum (prod (a 1 0) (a 1 0)) (neg (prod (prod (a 0 0) (a 0 0)) (a 0 0)))) (neg (c 5)))

/-- `circuit_description:9352-9479` -/
def gate62 : Expr :=
  prod (f 23 0) (prod (prod (prod (prod (prod (prod (prod (a 4 0) (sum (c 1) (neg (a 4 0)))) (sum (c 2) (neg
  (a 4 0)))) (sum (c 3) (neg (a 4 0)))) (sum (c 4) (neg (a 4 0)))) (sum (c 5) (neg (a 4 0)))) (sum (c 6) (neg
  (a 4 0)))) (sum (c 7) (neg (a 4 0))))

/-- `circuit_description:9480-9559` -/
def gate63 : Expr :=
  prod (prod (prod (prod (f 21 0) (sum (c 1) (neg (f 21 0)))) (sum (c 3) (neg (f 21 0)))) (sum (c 4) (neg (f
  21 0)))) (prod (a 5 0) (sum (c 1) (neg (a 5 0))))

/-- `circuit_description:9560-9639` -/
def gate64 : Expr :=
  prod (prod (prod (prod (f 21 0) (sum (c 1) (neg (f 21 0)))) (sum (c 3) (neg (f 21 0)))) (sum (c 4) (neg (f
  21 0)))) (sum (prod (a 4 0) (a 4 0)) (neg (c 1)))

/-- `circuit_description:9640-9732` -/
def gate65 : Expr :=
  prod (prod (prod (prod (f 21 0) (sum (c 1) (neg (f 21 0)))) (sum (c 3) (neg (f 21 0)))) (sum (c 4) (neg (f
  21 0)))) (prod (sum (a 1 0) (neg (a 3 0))) (sum (a 1 0) (a 3 0)))

/-- `circuit_description:9733-9816` -/
def gate66 : Expr :=
  prod (prod (prod (prod (f 21 0) (sum (c 1) (neg (f 21 0)))) (sum (c 3) (neg (f 21 0)))) (sum (c 4) (neg (f
  21 0)))) (sum (prod (a 4 0) (a 1 0)) (neg (a 3 0)))

/-- `circuit_description:9817-9889` -/
def gate67 : Expr :=
  prod (prod (prod (prod (f 21 0) (sum (c 1) (neg (f 21 0)))) (sum (c 2) (neg (f 21 0)))) (sum (c 4) (neg (f
  21 0)))) (prod (a 8 0) (a 7 0))

/-- `circuit_description:9890-9978` -/
def gate68 : Expr :=
  prod (prod (prod (prod (f 21 0) (sum (c 1) (neg (f 21 0)))) (sum (c 2) (neg (f 21 0)))) (sum (c 4) (neg (f
  21 0)))) (prod (a 8 0) (sum (a 7 1) (neg (prod (a 8 (-1)) (c 0x1000000000000000000000000000000)))))

/-- `circuit_description:9979-10095` -/
def gate69 : Expr :=
  prod (prod (prod (prod (f 21 0) (sum (c 1) (neg (f 21 0)))) (sum (c 2) (neg (f 21 0)))) (sum (c 4) (neg (f
  21 0)))) (prod (a 8 0) (prod (sum (a 8 1) (neg (scaled (a 7 1) 8))) (sum (c 1) (neg (sum (a 8 1) (neg
  (scaled (a 7 1) 8)))))))

/-- `circuit_description:10096-10168` -/
def gate70 : Expr :=
  prod (prod (prod (prod (f 21 0) (sum (c 1) (neg (f 21 0)))) (sum (c 2) (neg (f 21 0)))) (sum (c 4) (neg (f
  21 0)))) (prod (a 8 0) (a 6 1))

/-- `circuit_description:10169-10280` -/
def gate71 : Expr :=
  prod (prod (prod (prod (f 21 0) (sum (c 1) (neg (f 21 0)))) (sum (c 2) (neg (f 21 0)))) (sum (c 4) (neg (f
  21 0)))) (prod (prod (prod (a 7 0) (sum (c 1) (neg (a 7 0)))) (sum (c 2) (neg (a 7 0)))) (sum (c 3) (neg (a
  7 0))))

/-- `circuit_description:10281-10360` -/
def gate72 : Expr :=
  prod (prod (prod (prod (f 21 0) (sum (c 1) (neg (f 21 0)))) (sum (c 2) (neg (f 21 0)))) (sum (c 4) (neg (f
  21 0)))) (prod (a 8 0) (sum (c 1) (neg (a 8 0))))

/-- `circuit_description:10361-10447` -/
def gate73 : Expr :=
  prod (prod (prod (prod (f 21 0) (sum (c 1) (neg (f 21 0)))) (sum (c 2) (neg (f 21 0)))) (sum (c 4) (neg (f
  21 0)))) (sum (a 8 (-1)) (neg (sum (a 7 0) (scaled (a 8 0) 4))))

/-- `circuit_description:10448-10548` -/
def gate74 : Expr :=
  prod (prod (prod (prod (f 21 0) (sum (c 1) (neg (f 21 0)))) (sum (c 2) (neg (f 21 0)))) (sum (c 4) (neg (f
  21 0)))) (sum (a 6 0) (neg (sum (sum (sum (a 6 (-1)) (neg (scaled (a 8 (-1))
  0x1000000000000000000000000000000000000000000000000000000000000000))) (c
  0x400000000000000000000000000000000)) (neg (c 0x224698fc094cf91b992d30ed00000001)))))

end Orchard.Pinned
