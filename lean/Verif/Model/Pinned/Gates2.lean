import Verif.Model.Pinned.Expr

/-!
# The constraint system pinned in `/repo/src/circuit_description` (lines 1-26923), part 2

Generated from the file: `gates: [...]` in order, each expression as it stands there, without the
`query_index` of the queries.
-/

namespace Orchard.Pinned

open Expr

/-- `circuit_description:10549-10893` -/
def gate75 : Expr :=
  prod (prod (prod (prod (f 21 0) (sum (c 1) (neg (f 21 0)))) (sum (c 2) (neg (f 21 0)))) (sum (c 3) (neg (f
  21 0)))) (sum (sum (sum (scaled (prod (prod (prod (sum (a 6 0) (f 5 0)) (sum (a 6 0) (f 5 0))) (prod (sum
  (a 6 0) (f 5 0)) (sum (a 6 0) (f 5 0)))) (sum (a 6 0) (f 5 0)))
  0xab5e5b874a68de7b3d59fbdc8c9ead497d7a0ab23850b56323f2486d7e11b63) (scaled (prod (prod (prod (sum (a 7 0)
  (f 6 0)) (sum (a 7 0) (f 6 0))) (prod (sum (a 7 0) (f 6 0)) (sum (a 7 0) (f 6 0)))) (sum (a 7 0) (f 6 0)))
  0x31916628e58a5abb293f0f0d886c7954240d4a7cbf7357368eca5596e996ab5e)) (scaled (prod (prod (prod (sum (a 8 0)
  (f 7 0)) (sum (a 8 0) (f 7 0))) (prod (sum (a 8 0) (f 7 0)) (sum (a 8 0) (f 7 0)))) (sum (a 8 0) (f 7 0)))
  0x7c045d5f5e9e5a6d803952bbb364fdfa0a3b71a5fb1573519d1cf25d8e8345d)) (neg (a 6 1)))

/-- `circuit_description:10894-11238` -/
def gate76 : Expr :=
  prod (prod (prod (prod (f 21 0) (sum (c 1) (neg (f 21 0)))) (sum (c 2) (neg (f 21 0)))) (sum (c 3) (neg (f
  21 0)))) (sum (sum (sum (scaled (prod (prod (prod (sum (a 6 0) (f 5 0)) (sum (a 6 0) (f 5 0))) (prod (sum
  (a 6 0) (f 5 0)) (sum (a 6 0) (f 5 0)))) (sum (a 6 0) (f 5 0)))
  0x233162630ebf9ed7f8e24f66822c2d9f3a0a464048bd770ad049cdc8d085167c) (scaled (prod (prod (prod (sum (a 7 0)
  (f 6 0)) (sum (a 7 0) (f 6 0))) (prod (sum (a 7 0) (f 6 0)) (sum (a 7 0) (f 6 0)))) (sum (a 7 0) (f 6 0)))
  0x25cae2599892a8b0b36664548d60957d78f8365c85bbab07402270113e047a2e)) (scaled (prod (prod (prod (sum (a 8 0)
  (f 7 0)) (sum (a 8 0) (f 7 0))) (prod (sum (a 8 0) (f 7 0)) (sum (a 8 0) (f 7 0)))) (sum (a 8 0) (f 7 0)))
  0x22f5b5e1e6081c9774938717989a19579aad3d8262efd83ff84d806f685f747a)) (neg (a 7 1)))

/-- `circuit_description:11239-11583` -/
def gate77 : Expr :=
  prod (prod (prod (prod (f 21 0) (sum (c 1) (neg (f 21 0)))) (sum (c 2) (neg (f 21 0)))) (sum (c 3) (neg (f
  21 0)))) (sum (sum (sum (scaled (prod (prod (prod (sum (a 6 0) (f 5 0)) (sum (a 6 0) (f 5 0))) (prod (sum
  (a 6 0) (f 5 0)) (sum (a 6 0) (f 5 0)))) (sum (a 6 0) (f 5 0)))
  0x2e29dd59c64b1037f333aa91c383346421680eabc56bc15dfee7a9944f84dbe4) (scaled (prod (prod (prod (sum (a 7 0)
  (f 6 0)) (sum (a 7 0) (f 6 0))) (prod (sum (a 7 0) (f 6 0)) (sum (a 7 0) (f 6 0)))) (sum (a 7 0) (f 6 0)))
  0x1d1aab4ec1cd678892d15e7dceef1665cbeaf48b3a0624c3c771effa43263664)) (scaled (prod (prod (prod (sum (a 8 0)
  (f 7 0)) (sum (a 8 0) (f 7 0))) (prod (sum (a 8 0) (f 7 0)) (sum (a 8 0) (f 7 0)))) (sum (a 8 0) (f 7 0)))
  0x3bf763086a18936451e0cbead65516b975872c39b59a31f615639415f6e85ef1)) (neg (a 8 1)))

/-- `circuit_description:11584-11739` -/
def gate78 : Expr :=
  prod (prod (prod (prod (f 24 0) (sum (c 2) (neg (f 24 0)))) (sum (c 3) (neg (f 24 0)))) (sum (c 4) (neg (f
  24 0)))) (sum (prod (prod (prod (sum (a 6 0) (f 5 0)) (sum (a 6 0) (f 5 0))) (prod (sum (a 6 0) (f 5 0))
  (sum (a 6 0) (f 5 0)))) (sum (a 6 0) (f 5 0))) (neg (a 5 0)))

/-- `circuit_description:11740-12147` -/
def gate79 : Expr :=
  prod (prod (prod (prod (f 24 0) (sum (c 2) (neg (f 24 0)))) (sum (c 3) (neg (f 24 0)))) (sum (c 4) (neg (f
  24 0)))) (sum (prod (prod (prod (sum (sum (sum (scaled (a 5 0)
  0xab5e5b874a68de7b3d59fbdc8c9ead497d7a0ab23850b56323f2486d7e11b63) (scaled (sum (a 7 0) (f 6 0))
  0x31916628e58a5abb293f0f0d886c7954240d4a7cbf7357368eca5596e996ab5e)) (scaled (sum (a 8 0) (f 7 0))
  0x7c045d5f5e9e5a6d803952bbb364fdfa0a3b71a5fb1573519d1cf25d8e8345d)) (f 8 0)) (sum (sum (sum (scaled (a 5 0)
  0xab5e5b874a68de7b3d59fbdc8c9ead497d7a0ab23850b56323f2486d7e11b63) (scaled (sum (a 7 0) (f 6 0))
  0x31916628e58a5abb293f0f0d886c7954240d4a7cbf7357368eca5596e996ab5e)) (scaled (sum (a 8 0) (f 7 0))
  0x7c045d5f5e9e5a6d803952bbb364fdfa0a3b71a5fb1573519d1cf25d8e8345d)) (f 8 0))) (prod (sum (sum (sum (scaled
  (a 5 0) 0xab5e5b874a68de7b3d59fbdc8c9ead497d7a0ab23850b56323f2486d7e11b63) (scaled (sum (a 7 0) (f 6 0))
  0x31916628e58a5abb293f0f0d886c7954240d4a7cbf7357368eca5596e996ab5e)) (scaled (sum (a 8 0) (f 7 0))
  0x7c045d5f5e9e5a6d803952bbb364fdfa0a3b71a5fb1573519d1cf25d8e8345d)) (f 8 0)) (sum (sum (sum (scaled (a 5 0)
  0xab5e5b874a68de7b3d59fbdc8c9ead497d7a0ab23850b56323f2486d7e11b63) (scaled (sum (a 7 0) (f 6 0))
  0x31916628e58a5abb293f0f0d886c7954240d4a7cbf7357368eca5596e996ab5e)) (scaled (sum (a 8 0) (f 7 0))
  0x7c045d5f5e9e5a6d803952bbb364fdfa0a3b71a5fb1573519d1cf25d8e8345d)) (f 8 0)))) (sum (sum (sum (scaled (a 5
  0) 0xab5e5b874a68de7b3d59fbdc8c9ead497d7a0ab23850b56323f2486d7e11b63) (scaled (sum (a 7 0) (f 6 0))
  0x31916628e58a5abb293f0f0d886c7954240d4a7cbf7357368eca5596e996ab5e)) (scaled (sum (a 8 0) (f 7 0))
  0x7c045d5f5e9e5a6d803952bbb364fdfa0a3b71a5fb1573519d1cf25d8e8345d)) (f 8 0))) (neg (sum (sum (scaled (a 6
  1) 0x2cc057f3fa14687acc59ffd00de864434543705f35e98ab5c6de463cd1404e6b) (scaled (a 7 1)
  0x32e7c439f2f967e55fd72b55df208385fadbf8ae7ae24796171840417cab7576)) (scaled (a 8 1)
  0x2eae5df8c3115969f461778abf6c91fa1403db6f50302040942645bd7d4464e0))))

/-- `circuit_description:12148-12303` -/
def gate80 : Expr :=
  prod (prod (prod (prod (f 24 0) (sum (c 2) (neg (f 24 0)))) (sum (c 3) (neg (f 24 0)))) (sum (c 4) (neg (f
  24 0)))) (sum (sum (sum (sum (scaled (a 5 0)
  0x233162630ebf9ed7f8e24f66822c2d9f3a0a464048bd770ad049cdc8d085167c) (scaled (sum (a 7 0) (f 6 0))
  0x25cae2599892a8b0b36664548d60957d78f8365c85bbab07402270113e047a2e)) (scaled (sum (a 8 0) (f 7 0))
  0x22f5b5e1e6081c9774938717989a19579aad3d8262efd83ff84d806f685f747a)) (f 9 0)) (neg (sum (sum (scaled (a 6
  1) 0x7bf368481067199db18b4aefe68d26d13f074fde9a18b29a1ca1516a4a1a6a0) (scaled (a 7 1)
  0x2aec6906c63f3cf1018a918b9dac5dadbb1d65040c85c1bfe82425bc1b23a059)) (scaled (a 8 1)
  0x952e0243aec2af01215944a64a246b276b2a7139db71b36e0541adf238e0781))))

/-- `circuit_description:12304-12459` -/
def gate81 : Expr :=
  prod (prod (prod (prod (f 24 0) (sum (c 2) (neg (f 24 0)))) (sum (c 3) (neg (f 24 0)))) (sum (c 4) (neg (f
  24 0)))) (sum (sum (sum (sum (scaled (a 5 0)
  0x2e29dd59c64b1037f333aa91c383346421680eabc56bc15dfee7a9944f84dbe4) (scaled (sum (a 7 0) (f 6 0))
  0x1d1aab4ec1cd678892d15e7dceef1665cbeaf48b3a0624c3c771effa43263664)) (scaled (sum (a 8 0) (f 7 0))
  0x3bf763086a18936451e0cbead65516b975872c39b59a31f615639415f6e85ef1)) (f 10 0)) (neg (sum (sum (scaled (a 6
  1) 0x2fcbba6f9159a219723a63a0c09dab26aef9112e952fdbb52a418d8d73a7c908) (scaled (a 7 1)
  0x1ec7372574f3851bb4ddd4b4d6452256c5e4960d7424cd3776efab42d4fba90b)) (scaled (a 8 1)
  0xd0c2efd6472f12a3c26fa4b7d25b1e487a7435d30f8be81adc8933c6f3c72ee))))

/-- `circuit_description:12460-12543` -/
def gate82 : Expr :=
  prod (prod (prod (prod (f 24 0) (sum (c 1) (neg (f 24 0)))) (sum (c 3) (neg (f 24 0)))) (sum (c 4) (neg (f
  24 0)))) (sum (sum (a 6 (-1)) (a 6 0)) (neg (a 6 1)))

/-- `circuit_description:12544-12627` -/
def gate83 : Expr :=
  prod (prod (prod (prod (f 24 0) (sum (c 1) (neg (f 24 0)))) (sum (c 3) (neg (f 24 0)))) (sum (c 4) (neg (f
  24 0)))) (sum (sum (a 7 (-1)) (a 7 0)) (neg (a 7 1)))

/-- `circuit_description:12628-12702` -/
def gate84 : Expr :=
  prod (prod (prod (prod (f 24 0) (sum (c 1) (neg (f 24 0)))) (sum (c 3) (neg (f 24 0)))) (sum (c 4) (neg (f
  24 0)))) (sum (a 8 (-1)) (neg (a 8 1)))

/-- `circuit_description:12703-12840` -/
def gate85 : Expr :=
  prod (prod (prod (prod (f 24 0) (sum (c 1) (neg (f 24 0)))) (sum (c 2) (neg (f 24 0)))) (sum (c 4) (neg (f
  24 0)))) (sum (scaled (f 3 0) 2) (neg (prod (sum (a 3 0) (a 4 0)) (sum (a 0 0) (neg (sum (sum (prod (a 3 0)
  (a 3 0)) (neg (a 0 0))) (neg (a 1 0))))))))

/-- `circuit_description:12841-12925` -/
def gate86 : Expr :=
  prod (f 16 0) (sum (prod (a 4 0) (a 4 0)) (neg (sum (sum (a 0 1) (sum (sum (prod (a 3 0) (a 3 0)) (neg (a 0
  0))) (neg (a 1 0)))) (a 0 0))))

/-- `circuit_description:12926-13176` -/
def gate87 : Expr :=
  prod (f 16 0) (sum (prod (scaled (a 4 0) 4) (sum (a 0 0) (neg (a 0 1)))) (neg (sum (sum (scaled (prod (sum
  (a 3 0) (a 4 0)) (sum (a 0 0) (neg (sum (sum (prod (a 3 0) (a 3 0)) (neg (a 0 0))) (neg (a 1 0)))))) 2)
  (prod (sum (c 2) (neg (prod (f 12 0) (sum (f 12 0) (neg (c 1)))))) (prod (sum (a 3 1) (a 4 1)) (sum (a 0 1)
  (neg (sum (sum (prod (a 3 1) (a 3 1)) (neg (a 0 1))) (neg (a 1 1)))))))) (prod (scaled (prod (f 12 0) (sum
  (f 12 0) (neg (c 1)))) 2) (a 3 1)))))

/-- `circuit_description:13177-13285` -/
def gate88 : Expr :=
  prod (prod (prod (prod (f 24 0) (sum (c 1) (neg (f 24 0)))) (sum (c 2) (neg (f 24 0)))) (sum (c 3) (neg (f
  24 0)))) (sum (a 2 0) (neg (sum (prod (a 4 0) (a 1 0)) (prod (sum (c 1) (neg (a 4 0))) (a 0 0)))))

/-- `circuit_description:13286-13394` -/
def gate89 : Expr :=
  prod (prod (prod (prod (f 24 0) (sum (c 1) (neg (f 24 0)))) (sum (c 2) (neg (f 24 0)))) (sum (c 3) (neg (f
  24 0)))) (sum (a 3 0) (neg (sum (prod (a 4 0) (a 0 0)) (prod (sum (c 1) (neg (a 4 0))) (a 1 0)))))

/-- `circuit_description:13395-13474` -/
def gate90 : Expr :=
  prod (prod (prod (prod (f 24 0) (sum (c 1) (neg (f 24 0)))) (sum (c 2) (neg (f 24 0)))) (sum (c 3) (neg (f
  24 0)))) (prod (a 4 0) (sum (c 1) (neg (a 4 0))))

/-- `circuit_description:13475-13595` -/
def gate91 : Expr :=
  prod (prod (prod (prod (prod (prod (f 25 0) (sum (c 2) (neg (f 25 0)))) (sum (c 3) (neg (f 25 0)))) (sum (c
  4) (neg (f 25 0)))) (sum (c 5) (neg (f 25 0)))) (sum (c 6) (neg (f 25 0)))) (sum (sum (a 0 0) (neg (scaled
  (a 0 1) 1024))) (neg (a 4 1)))

/-- `circuit_description:13596-13740` -/
def gate92 : Expr :=
  prod (prod (prod (prod (prod (prod (f 25 0) (sum (c 2) (neg (f 25 0)))) (sum (c 3) (neg (f 25 0)))) (sum (c
  4) (neg (f 25 0)))) (sum (c 5) (neg (f 25 0)))) (sum (c 6) (neg (f 25 0)))) (sum (sum (a 0 1) (scaled (sum
  (sum (a 1 0) (neg (scaled (a 1 1) 1024))) (scaled (a 2 1) 1024))
  0x1000000000000000000000000000000000000000000000000000000000000)) (neg (a 3 0)))

/-- `circuit_description:13741-13859` -/
def gate93 : Expr :=
  prod (prod (prod (prod (prod (prod (f 25 0) (sum (c 2) (neg (f 25 0)))) (sum (c 3) (neg (f 25 0)))) (sum (c
  4) (neg (f 25 0)))) (sum (c 5) (neg (f 25 0)))) (sum (c 6) (neg (f 25 0)))) (sum (sum (a 3 1) (scaled (a 2
  0) 32)) (neg (a 4 0)))

/-- `circuit_description:13860-13978` -/
def gate94 : Expr :=
  prod (prod (prod (prod (prod (prod (f 25 0) (sum (c 2) (neg (f 25 0)))) (sum (c 3) (neg (f 25 0)))) (sum (c
  4) (neg (f 25 0)))) (sum (c 5) (neg (f 25 0)))) (sum (c 6) (neg (f 25 0)))) (sum (a 1 1) (neg (sum (a 2 1)
  (scaled (a 3 1) 32))))

/-- `circuit_description:13979-14148` -/
def gate95 : Expr :=
  prod (prod (prod (prod (prod (prod (f 25 0) (sum (c 1) (neg (f 25 0)))) (sum (c 3) (neg (f 25 0)))) (sum (c
  4) (neg (f 25 0)))) (sum (c 5) (neg (f 25 0)))) (sum (c 6) (neg (f 25 0)))) (sum (scaled (f 4 0) 2) (neg
  (prod (sum (a 8 0) (a 9 0)) (sum (a 5 0) (neg (sum (sum (prod (a 8 0) (a 8 0)) (neg (a 5 0))) (neg (a 6
  0))))))))

/-- `circuit_description:14149-14233` -/
def gate96 : Expr :=
  prod (f 17 0) (sum (prod (a 9 0) (a 9 0)) (neg (sum (sum (a 5 1) (sum (sum (prod (a 8 0) (a 8 0)) (neg (a 5
  0))) (neg (a 6 0)))) (a 5 0))))

/-- `circuit_description:14234-14484` -/
def gate97 : Expr :=
  prod (f 17 0) (sum (prod (scaled (a 9 0) 4) (sum (a 5 0) (neg (a 5 1)))) (neg (sum (sum (scaled (prod (sum
  (a 8 0) (a 9 0)) (sum (a 5 0) (neg (sum (sum (prod (a 8 0) (a 8 0)) (neg (a 5 0))) (neg (a 6 0)))))) 2)
  (prod (sum (c 2) (neg (prod (f 13 0) (sum (f 13 0) (neg (c 1)))))) (prod (sum (a 8 1) (a 9 1)) (sum (a 5 1)
  (neg (sum (sum (prod (a 8 1) (a 8 1)) (neg (a 5 1))) (neg (a 6 1)))))))) (prod (scaled (prod (f 13 0) (sum
  (f 13 0) (neg (c 1)))) 2) (a 8 1)))))

/-- `circuit_description:14485-14641` -/
def gate98 : Expr :=
  prod (prod (prod (prod (prod (prod (prod (f 26 0) (sum (c 2) (neg (f 26 0)))) (sum (c 3) (neg (f 26 0))))
  (sum (c 4) (neg (f 26 0)))) (sum (c 5) (neg (f 26 0)))) (sum (c 6) (neg (f 26 0)))) (sum (c 7) (neg (f 26
  0)))) (sum (a 7 0) (neg (sum (prod (a 9 0) (a 6 0)) (prod (sum (c 1) (neg (a 9 0))) (a 5 0)))))

/-- `circuit_description:14642-14798` -/
def gate99 : Expr :=
  prod (prod (prod (prod (prod (prod (prod (f 26 0) (sum (c 2) (neg (f 26 0)))) (sum (c 3) (neg (f 26 0))))
  (sum (c 4) (neg (f 26 0)))) (sum (c 5) (neg (f 26 0)))) (sum (c 6) (neg (f 26 0)))) (sum (c 7) (neg (f 26
  0)))) (sum (a 8 0) (neg (sum (prod (a 9 0) (a 5 0)) (prod (sum (c 1) (neg (a 9 0))) (a 6 0)))))

/-- `circuit_description:14799-14926` -/
def gate100 : Expr :=
  prod (prod (prod (prod (prod (prod (prod (f 26 0) (sum (c 2) (neg (f 26 0)))) (sum (c 3) (neg (f 26 0))))
  (sum (c 4) (neg (f 26 0)))) (sum (c 5) (neg (f 26 0)))) (sum (c 6) (neg (f 26 0)))) (sum (c 7) (neg (f 26
  0)))) (prod (a 9 0) (sum (c 1) (neg (a 9 0))))

/-- `circuit_description:14927-15063` -/
def gate101 : Expr :=
  prod (prod (prod (prod (prod (prod (prod (f 26 0) (sum (c 1) (neg (f 26 0)))) (sum (c 3) (neg (f 26 0))))
  (sum (c 4) (neg (f 26 0)))) (sum (c 5) (neg (f 26 0)))) (sum (c 6) (neg (f 26 0)))) (sum (c 7) (neg (f 26
  0)))) (sum (sum (a 5 0) (neg (scaled (a 5 1) 1024))) (neg (a 9 1)))

/-- `circuit_description:15064-15224` -/
def gate102 : Expr :=
  prod (prod (prod (prod (prod (prod (prod (f 26 0) (sum (c 1) (neg (f 26 0)))) (sum (c 3) (neg (f 26 0))))
  (sum (c 4) (neg (f 26 0)))) (sum (c 5) (neg (f 26 0)))) (sum (c 6) (neg (f 26 0)))) (sum (c 7) (neg (f 26
  0)))) (sum (sum (a 5 1) (scaled (sum (sum (a 6 0) (neg (scaled (a 6 1) 1024))) (scaled (a 7 1) 1024))
  0x1000000000000000000000000000000000000000000000000000000000000)) (neg (a 8 0)))

/-- `circuit_description:15225-15359` -/
def gate103 : Expr :=
  prod (prod (prod (prod (prod (prod (prod (f 26 0) (sum (c 1) (neg (f 26 0)))) (sum (c 3) (neg (f 26 0))))
  (sum (c 4) (neg (f 26 0)))) (sum (c 5) (neg (f 26 0)))) (sum (c 6) (neg (f 26 0)))) (sum (c 7) (neg (f 26
  0)))) (sum (sum (a 8 1) (scaled (a 7 0) 32)) (neg (a 9 0)))

/-- `circuit_description:15360-15494` -/
def gate104 : Expr :=
  prod (prod (prod (prod (prod (prod (prod (f 26 0) (sum (c 1) (neg (f 26 0)))) (sum (c 3) (neg (f 26 0))))
  (sum (c 4) (neg (f 26 0)))) (sum (c 5) (neg (f 26 0)))) (sum (c 6) (neg (f 26 0)))) (sum (c 7) (neg (f 26
  0)))) (sum (a 6 1) (neg (sum (a 7 1) (scaled (a 8 1) 32))))

end Orchard.Pinned
