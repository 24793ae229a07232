import Verif.Crypto.SinsemillaTable.T00
import Verif.Crypto.SinsemillaTable.T01
import Verif.Crypto.SinsemillaTable.T02
import Verif.Crypto.SinsemillaTable.T03
import Verif.Crypto.SinsemillaTable.T04
import Verif.Crypto.SinsemillaTable.T05
import Verif.Crypto.SinsemillaTable.T06
import Verif.Crypto.SinsemillaTable.T07
import Verif.Crypto.SinsemillaTable.T08
import Verif.Crypto.SinsemillaTable.T09
import Verif.Crypto.SinsemillaTable.T10
import Verif.Crypto.SinsemillaTable.T11
import Verif.Crypto.SinsemillaTable.T12
import Verif.Crypto.SinsemillaTable.T13
import Verif.Crypto.SinsemillaTable.T14
import Verif.Crypto.SinsemillaTable.T15

/-!
# The Sinsemilla table, and Sinsemilla in the kernel

Nothing here models code.
-/

namespace Orchard.Compute

/-- The packed `x` coordinates. -/
def sPackX : List ℕ :=
  [sPackX00, sPackX01, sPackX02, sPackX03, sPackX04, sPackX05, sPackX06, sPackX07, sPackX08, sPackX09, sPackX10, sPackX11, sPackX12, sPackX13, sPackX14, sPackX15]

/-- The packed `y` coordinates. -/
def sPackY : List ℕ :=
  [sPackY00, sPackY01, sPackY02, sPackY03, sPackY04, sPackY05, sPackY06, sPackY07, sPackY08, sPackY09, sPackY10, sPackY11, sPackY12, sPackY13, sPackY14, sPackY15]

/-- The `x` coordinate of `S(j)`. -/
def sX (j : ℕ) : ℕ := unpack (sPackX.getD (Nat.div j 64) 0) (Nat.mod j 64)

/-- The `y` coordinate of `S(j)`. -/
def sY (j : ℕ) : ℕ := unpack (sPackY.getD (Nat.div j 64) 0) (Nat.mod j 64)

theorem rep_sinsemillaS (j : ℕ) (hj : j < 1024) : Rep (some (sX j, sY j)) (Prims.zcash.sinsemillaS j) := by
  unfold sX sY
  have hd : Nat.div j 64 = j / 64 := rfl
  have hm : Nat.mod j 64 = j % 64 := rfl
  rw [hd, hm]
  have e : j = 64 * (j / 64) + j % 64 := (Nat.div_add_mod j 64).symm
  have hr : j % 64 < 64 := Nat.mod_lt _ (by norm_num)
  have hk : j / 64 < 16 := by omega
  generalize j / 64 = k at e hk ⊢
  generalize j % 64 = i at e hr ⊢
  subst e
  unfold sPackX sPackY
  interval_cases k
  · exact sCheck_sound sPack00 (by norm_num) i hr
  · exact sCheck_sound sPack01 (by norm_num) i hr
  · exact sCheck_sound sPack02 (by norm_num) i hr
  · exact sCheck_sound sPack03 (by norm_num) i hr
  · exact sCheck_sound sPack04 (by norm_num) i hr
  · exact sCheck_sound sPack05 (by norm_num) i hr
  · exact sCheck_sound sPack06 (by norm_num) i hr
  · exact sCheck_sound sPack07 (by norm_num) i hr
  · exact sCheck_sound sPack08 (by norm_num) i hr
  · exact sCheck_sound sPack09 (by norm_num) i hr
  · exact sCheck_sound sPack10 (by norm_num) i hr
  · exact sCheck_sound sPack11 (by norm_num) i hr
  · exact sCheck_sound sPack12 (by norm_num) i hr
  · exact sCheck_sound sPack13 (by norm_num) i hr
  · exact sCheck_sound sPack14 (by norm_num) i hr
  · exact sCheck_sound sPack15 (by norm_num) i hr

end Orchard.Compute
