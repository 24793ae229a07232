import Verif.Model.Pinned.Gates1
import Verif.Model.Pinned.Gates2
import Verif.Model.Pinned.Gates3

/-!
# The constraint system pinned in `/repo/src/circuit_description`: gates, lookups, permutation, constants

Generated from the file.
-/

namespace Orchard.Pinned

open Expr

/-- `circuit_description:14-26923` -/
def gates : List Expr :=
  [gate0, gate1, gate2, gate3, gate4, gate5, gate6, gate7, gate8, gate9, gate10, gate11, gate12, gate13,
  gate14, gate15, gate16, gate17, gate18, gate19, gate20, gate21, gate22, gate23, gate24, gate25, gate26,
  gate27, gate28, gate29, gate30, gate31, gate32, gate33, gate34, gate35, gate36, gate37, gate38, gate39,
  gate40, gate41, gate42, gate43, gate44, gate45, gate46, gate47, gate48, gate49, gate50, gate51, gate52,
  gate53, gate54, gate55, gate56, gate57, gate58, gate59, gate60, gate61, gate62, gate63, gate64, gate65,
  gate66, gate67, gate68, gate69, gate70, gate71, gate72, gate73, gate74, gate75, gate76, gate77, gate78,
  gate79, gate80, gate81, gate82, gate83, gate84, gate85, gate86, gate87, gate88, gate89, gate90, gate91,
  gate92, gate93, gate94, gate95, gate96, gate97, gate98, gate99, gate100, gate101, gate102, gate103,
  gate104, gate105, gate106, gate107, gate108, gate109, gate110, gate111, gate112, gate113, gate114, gate115,
  gate116, gate117, gate118, gate119, gate120, gate121, gate122, gate123, gate124, gate125, gate126, gate127,
  gate128, gate129, gate130, gate131, gate132, gate133, gate134, gate135, gate136, gate137, gate138, gate139,
  gate140, gate141, gate142, gate143, gate144, gate145, gate146, gate147, gate148, gate149, gate150, gate151,
  gate152, gate153, gate154, gate155, gate156, gate157, gate158, gate159, gate160, gate161, gate162, gate163,
  gate164, gate165, gate166, gate167, gate168, gate169, gate170, gate171, gate172, gate173, gate174, gate175,
  gate176, gate177, gate178, gate179, gate180, gate181, gate182, gate183, gate184, gate185, gate186, gate187,
  gate188, gate189, gate190, gate191, gate192]

/-- `circuit_description:27489-28081`: input expressions and table expressions of the lookups. -/
def lookups : List (List Expr × List Expr) :=
  [([prod (f 14 0) (sum (prod (f 15 0) (sum (a 9 0) (neg (scaled (a 9 1) 1024)))) (prod (sum (c 1) (neg (f 15
    0))) (a 9 0)))],
   [f 0 0]),
  ([prod (f 16 0) (sum (a 2 0) (neg (scaled (prod (sum (f 12 0) (neg (prod (f 12 0) (sum (f 12 0) (neg (c
    1)))))) (a 2 1)) 1024))),
    sum (prod (f 16 0) (a 1 0)) (scaled (sum (c 1) (neg (f 16 0)))
    0xdb5218be6881f0f1431d4ea7d4afc7b29a05bafbede62b55a91eb912044ea5f),
    sum (prod (f 16 0) (sum (scaled (prod (sum (a 3 0) (a 4 0)) (sum (a 0 0) (neg (sum (sum (prod (a 3 0) (a
    3 0)) (neg (a 0 0))) (neg (a 1 0))))))
    0x2000000000000000000000000000000011234c7e04a67c8dcc96987680000001) (neg (prod (a 3 0) (sum (a 0 0) (neg
    (a 1 0))))))) (scaled (sum (c 1) (neg (f 16 0)))
    0x2f0f40c2f152a01c9caf66298493d5d0944a041c2e65ba0117c24f76bf8e6483)],
   [f 0 0, f 1 0, f 2 0]),
  ([prod (f 17 0) (sum (a 7 0) (neg (scaled (prod (sum (f 13 0) (neg (prod (f 13 0) (sum (f 13 0) (neg (c
    1)))))) (a 7 1)) 1024))),
    sum (prod (f 17 0) (a 6 0)) (scaled (sum (c 1) (neg (f 17 0)))
    0xdb5218be6881f0f1431d4ea7d4afc7b29a05bafbede62b55a91eb912044ea5f),
    sum (prod (f 17 0) (sum (scaled (prod (sum (a 8 0) (a 9 0)) (sum (a 5 0) (neg (sum (sum (prod (a 8 0) (a
    8 0)) (neg (a 5 0))) (neg (a 6 0))))))
    0x2000000000000000000000000000000011234c7e04a67c8dcc96987680000001) (neg (prod (a 8 0) (sum (a 5 0) (neg
    (a 6 0))))))) (scaled (sum (c 1) (neg (f 17 0)))
    0x2f0f40c2f152a01c9caf66298493d5d0944a041c2e65ba0117c24f76bf8e6483)],
   [f 0 0, f 1 0, f 2 0])]

/-- `circuit_description:27425-27488`: the columns of the permutation argument. -/
def permutation : List AnyColumn :=
  [.instance 0, .advice 0, .advice 1, .advice 2, .advice 3, .advice 4, .advice 5, .advice 6, .advice 7,
  .advice 8, .advice 9, .fixed 3, .fixed 8, .fixed 9, .fixed 10]

/-- `circuit_description:28082`: the columns for constants. -/
def constants : List AnyColumn := [.fixed 3]

/-- `circuit_description:26924-27150`: the queries of advice columns, by column and rotation. -/
def adviceQueries : List (ℕ × ℤ) :=
  [(0, 0), (1, 0), (2, 0), (3, 0), (4, 0), (5, 0), (6, 0), (7, 0), (8, 0), (9, 0), (9, 1), (9, -1), (2, 1),
  (3, 1), (4, 1), (5, 1), (0, 1), (1, 1), (7, 1), (8, 1), (6, -1), (1, -1), (6, 1), (7, -1), (8, -1)]

/-- `circuit_description:10` -/
def numFixedColumns : ℕ := 29

/-- `circuit_description:11` -/
def numAdviceColumns : ℕ := 10

/-- `circuit_description:12` -/
def numInstanceColumns : ℕ := 1

/-- `circuit_description:13` -/
def numSelectors : ℕ := 56

end Orchard.Pinned
