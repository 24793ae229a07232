import Verif.Basic.Pallas

/-!
# The order of the Pallas group

`q • G = 0` for the generator `G = (-1, 2)` is checked with a double-and-add certificate that lists
the slopes; the kernel checks the certificate by evaluating `checkSteps`.  Together with
`#E ≤ 2p + 1 < 2q` this gives `#E = q`.
-/

namespace Orchard

open WeierstrassCurve.Affine

/-- One certified step on natural-number coordinates: `false` doubles, `true` adds `(-1, 2)`.
The second component is the claimed slope. -/
def certStep (s : ℕ × ℕ × ℕ) (c : Bool × ℕ) : Option (ℕ × ℕ × ℕ) :=
  let k := s.1
  let x := s.2.1
  let y := s.2.2
  let l := c.2
  match c.1 with
  | false =>
    let x3 := (l * l + 2 * (p - x)) % p
    let y3 := (l * (x + (p - x3)) + (p - y)) % p
    bif Nat.beq ((l * (2 * y)) % p) ((3 * x * x) % p) && !(Nat.beq (y % p) 0) &&
        Nat.ble x p && Nat.ble y p
    then some (2 * k, x3, y3) else none
  | true =>
    let x3 := (l * l + (p - x) + 1) % p
    let y3 := (l * (x + (p - x3)) + (p - y)) % p
    bif Nat.beq ((l * (x + 1)) % p) ((y + (p - 2)) % p) && !(Nat.beq ((x + 1) % p) 0) &&
        Nat.ble x p && Nat.ble y p
    then some (k + 1, x3, y3) else none

/-- Run a certificate. -/
def certRun : List (Bool × ℕ) → ℕ × ℕ × ℕ → Option (ℕ × ℕ × ℕ)
  | [], s => some s
  | c :: cs, s =>
    match certStep s c with
    | none => none
    | some s' => certRun cs s'

/-- The standard generator `(-1, 2)` of Pallas (`pallas::Point::generator()` in `pasta_curves`). -/
def genG : Point := Point.ofXY (-1) 2 (by norm_num)

/-- What a certificate state asserts. -/
def certInv (s : ℕ × ℕ × ℕ) : Prop :=
  ∃ h, s.1 • genG = Point.ofXY (s.2.1 : Fp) (s.2.2 : Fp) h

theorem cast_mod_p (n : ℕ) : ((n % p : ℕ) : Fp) = n := by
  rw [ZMod.natCast_mod]

theorem cast_p_sub {n : ℕ} (h : n ≤ p) : ((p - n : ℕ) : Fp) = -(n : Fp) := by
  rw [Nat.cast_sub h, ZMod.natCast_self, zero_sub]

theorem eq_of_mod_beq {a b : ℕ} (h : (a % p).beq (b % p) = true) : (a : Fp) = b := by
  rw [Nat.beq_eq] at h
  rw [← cast_mod_p a, ← cast_mod_p b, h]

theorem ne_zero_of_mod_beq {a : ℕ} (h : (a % p).beq 0 = false) : (a : Fp) ≠ 0 := by
  intro h0
  rw [ZMod.natCast_eq_zero_iff] at h0
  rw [Nat.mod_eq_zero_of_dvd h0] at h
  exact absurd h (by decide)

theorem certStep_sound {s s' : ℕ × ℕ × ℕ} {c : Bool × ℕ} (h : certStep s c = some s')
    (hs : certInv s) : certInv s' := by
  obtain ⟨k, x, y⟩ := s
  obtain ⟨b, l⟩ := c
  obtain ⟨hxy, hk⟩ := hs
  simp only at hxy hk
  cases b with
  | false =>
    simp only [certStep] at h
    cases hc : (Nat.beq ((l * (2 * y)) % p) ((3 * x * x) % p) && !(Nat.beq (y % p) 0) &&
        Nat.ble x p && Nat.ble y p) with
    | false => rw [hc] at h; simp at h
    | true =>
      rw [hc] at h
      simp only [cond_true, Option.some.injEq] at h
      simp only [Bool.and_eq_true, Bool.not_eq_true', Nat.ble_eq] at hc
      obtain ⟨⟨⟨hl, hy⟩, hxp⟩, hyp⟩ := hc
      have hl' := eq_of_mod_beq hl
      have hy' := ne_zero_of_mod_beq hy
      push_cast at hl'
      subst h
      have hx3p : (l * l + 2 * (p - x)) % p ≤ p := (Nat.mod_lt _ (by decide +kernel)).le
      obtain ⟨h3, he⟩ := Point.add_tangent (x₃ := (((l * l + 2 * (p - x)) % p : ℕ) : Fp))
        (y₃ := (((l * (x + (p - (l * l + 2 * (p - x)) % p)) + (p - y)) % p : ℕ) : Fp))
        (l := (l : Fp)) hxy hy' (by rw [hl']; ring)
        (by rw [cast_mod_p]; push_cast; rw [cast_p_sub hxp]; ring)
        (by
          rw [cast_mod_p (_ + (p - y))]
          push_cast
          rw [cast_p_sub hyp, cast_p_sub hx3p]; ring)
      refine ⟨h3, ?_⟩
      rw [← he, ← hk, two_mul, add_nsmul]
  | true =>
    simp only [certStep] at h
    cases hc : (Nat.beq ((l * (x + 1)) % p) ((y + (p - 2)) % p) && !(Nat.beq ((x + 1) % p) 0) &&
        Nat.ble x p && Nat.ble y p) with
    | false => rw [hc] at h; simp at h
    | true =>
      rw [hc] at h
      simp only [cond_true, Option.some.injEq] at h
      simp only [Bool.and_eq_true, Bool.not_eq_true', Nat.ble_eq] at hc
      obtain ⟨⟨⟨hl, hx1⟩, hxp⟩, hyp⟩ := hc
      have hl' := eq_of_mod_beq hl
      have hx' := ne_zero_of_mod_beq hx1
      push_cast at hl' hx'
      rw [cast_p_sub (show 2 ≤ p by decide +kernel)] at hl'
      push_cast at hl'
      subst h
      have hx3p : (l * l + (p - x) + 1) % p ≤ p := (Nat.mod_lt _ (by decide +kernel)).le
      obtain ⟨h3, he⟩ := Point.add_chord (x₂ := (-1 : Fp)) (y₂ := 2)
        (x₃ := (((l * l + (p - x) + 1) % p : ℕ) : Fp))
        (y₃ := (((l * (x + (p - (l * l + (p - x) + 1) % p)) + (p - y)) % p : ℕ) : Fp))
        (l := (l : Fp)) hxy (by norm_num)
        (by intro hh; apply hx'; rw [hh]; ring)
        (by linear_combination hl')
        (by rw [cast_mod_p]; push_cast; rw [cast_p_sub hxp]; ring)
        (by
          rw [cast_mod_p (_ + (p - y))]
          push_cast
          rw [cast_p_sub hyp, cast_p_sub hx3p]; ring)
      refine ⟨h3, ?_⟩
      rw [← he, ← hk, succ_nsmul]
      rfl

theorem certRun_sound : ∀ (cs : List (Bool × ℕ)) (s s' : ℕ × ℕ × ℕ), certRun cs s = some s' →
    certInv s → certInv s'
  | [], s, s', h, hs => by
    simp only [certRun, Option.some.injEq] at h; exact h ▸ hs
  | c :: cs, s, s', h, hs => by
    simp only [certRun] at h
    cases hc : certStep s c with
    | none => rw [hc] at h; simp at h
    | some t =>
      rw [hc] at h
      exact certRun_sound cs t s' h (certStep_sound hc hs)

/-- Double-and-add certificate for `(q - 1) • G`. -/
def certQ : List (Bool × ℕ) := [
  (false, 0x100000000000000000000000000000000891a63f02533e46e64b4c3b40000001),
  (false, 0x37171df7702918d4559e6507b4a7d00dd0727ec38b6e3e748baa37b4e3a38821),
  (false, 0x6118fbb2c2d1edc692e16254ffea44ba927d371336d348e5c10640e0b719aea),
  (false, 0x2111718168f127529b500efc5cbdf97e8a8aa23a3d29fdfb1f9dd164136d1e71),
  (false, 0x201cf1d4d2cc6a08040aac8dada912c0f222f2d44672656443ce69b0dfd5378d),
  (false, 0x2526dc8fb1caea3f3b1ccd531d20fe4ca2eefab07961681c7af1c4fc28b0ebb7),
  (false, 0x3e2b05f5d2bcfc8df3b6c5cacb06a94b891868db55d5a59162eeabcab7da1e11),
  (false, 0x22366620d126158a447cca9b729fd90be14b605f89fddc3ed4cecc5fd876036c),
  (false, 0x2e8c8bcdacf4c3e13254f6e4a1225eba0ae5b05b2d67f79756161bcf016e0ca),
  (false, 0x160af902b7104aa7e0223931f4435b1a3f302a71c163c89ef1798a795e37fea3),
  (false, 0x27d11d72675e0e151366eb32976f6a634ec1fc392252c7b6a1f4a4f9010026a1),
  (false, 0x39b83ce50ee263078245e4b227415fe7d57ad77501dc7f719608a615442392e1),
  (false, 0x1fa5403521ed5597ff3ab14f7dfa22874ed1f51ee77a987685d51ea2b9eb12f8),
  (false, 0x100f86c112a8b55075acd985521c03c4786a0b67f4a8752bd10e4eb452c1250),
  (false, 0x37bf30b46b3733b73178ec61d7c2ae4a56c3ef76340d3fedb968ab958e5547b6),
  (false, 0x2053c9a403c2763dbb100d54b6e307e7ba362ed7036a8afa1da1547da4917ebf),
  (false, 0xf892032fa9b2b5c7035ecfb225fecd264acc394b624ca853c4dcb3e8c8f1ca6),
  (false, 0x26d3493fb9a7df41294a7fa24e78519a8937acd6502762360b8310ee743e2213),
  (false, 0x2ec799a0b9e237c01a64377df9cdb0fab131772385463d714d596dd8451ac428),
  (false, 0x11bcefeb54499cd10db98a0deb7d76932fa01fc6fc1b218418117651d84a41a7),
  (false, 0x194286a5cc27d91239bbd69c98fd1e33be10843721d0bc33052e1f67e483c86d),
  (false, 0x142069fcff8b7f101a7e42221b0d43014ba8d1d4c26d29c2c2a829e0777fd6b8),
  (false, 0x380bf8f4f36f9faf2ff1b0bdee15756ab7eb8630977293105b89db904f2d03b5),
  (false, 0x3f74044c681ffb132e82eb34c8b3344de3a41c656af68e69bbd01c6337e8eecf),
  (false, 0x20ce3e068de73e8360ce2cab1826b46fe7acc322ea688928afc852f20e4d09f1),
  (false, 0x849300bc923574132dbf6acd4028d1baec733e13ea2f73f3201e47891b4a837),
  (false, 0x10e7ffcd4bf539be4bc16f7f06e5de1482f761a41edd74e804d3005b8d691a60),
  (false, 0xffff6e6c4f74d2670f8db9c3923012aadfde608edaf263de55f589b93c85268),
  (false, 0x3dd426dbf8adfc7c2ae6028f40749633b8cbd15854898ab6b018f2b197a73128),
  (false, 0x1fd4a1adc4c020cf5a1ffabf71b65a9bc98b72bdf69d9769e3d7ec7dcc12e60),
  (false, 0x3222d5a15e2a2ca5db1e3ea5d23f1906c24b2d783fbe1c406d3da9d726431356),
  (false, 0x35cb40919c78079c92872f83adeb43050d05653138626c18672399c53b496daa),
  (false, 0xd3489590b8522217f0d723bebf3005af323f763c313c454fbdc5a3ee8d8ebe2),
  (false, 0x358bb8fe3d1ea0515a5dd4643b40c2dd6a2d2812f3f5feb41e9fd3e72801357b),
  (false, 0x252404f867abb7d5a21d656600846b06fc09963f061613c5e571e719e2766304),
  (false, 0x4e5de66cc04812eaac7d6d7e707e9fcb7ce8afcaba5c3e67a04cd105f408a09),
  (false, 0x2f190da4a8bb509db03725288d2573cb7f18c51de18a64a405f22d4b6001c07),
  (false, 0x801cd33c34e72f7212322db67b14e07fe43430ba0289d0c0475c3d70701e93e),
  (false, 0x906d3e90f72a2ff8305b7a781de621e57a69d43379f16f6f9299ab36fe8bc4a),
  (false, 0x3b73ef65b55aec7096d05400b7f4be44121c61774bf2fd966d434353eb856604),
  (false, 0x2d571996cfed11ccbada3e1e0f6c3f2e519d0edbcdb163f4519f060a97007260),
  (false, 0x282f883c7f95c688596193a81729dcacf0789e3edc9234d01adc3a3f5136ad9e),
  (false, 0x3243527dad9d834ebff04dbacd5bb3320ad690d109f01d89bf443942bf12370),
  (false, 0x3c3fd5290853af23b3a1ed39cf2e175aa28267e4d24e2d8d5d4eaed05849f395),
  (false, 0x102731a3db076df3975b41f0573de1eb9dbd2fd24e4f94edf64dd8dfb0f2385b),
  (false, 0x3e6340122f5a5fd0ef0a6b8f40bc830fb050261687d0dbbcdef62b86995b32c2),
  (false, 0x19fa567e9522c1ee6f7c2b0516e4297e596cebbf6c038d14091b10201b20cccb),
  (false, 0x1c3959b0f0b4c06de9cf49c376cec07f136a48b44dfbdc6a816ee0d0eb583527),
  (false, 0x2e0eb8ea4cb218cd887d794f0d2817e8f84ea5a478e96c36656422d34f5161f1),
  (false, 0x29567ee4e3c0eeb14f10f923ec516aebb015dd072a48f1fd930ad233fc579b5a),
  (false, 0x2cc1dc7d0143bf7323200006482804f9934fb3697721b156d0b2c07262559327),
  (false, 0x2d23862750179e4f2e5af218dcb92b97bd880d8464452a8866dbde7e9d43c834),
  (false, 0x1dc18073ac86253ddc49ac830cec880cb1e9d4b95f6799cdb3faf2784bd1a98f),
  (false, 0x448091d480379707c83b8b4ded80fe9bb8d4d32ed54c39df956648ee2168064),
  (false, 0x2c4fec73a8598f3543a6cd24e83e20b693837e0296fef1d58db6f0e34a02726a),
  (false, 0x10b6b59c801ecb20bfda53692b3f02b12309f69283fe56a4f5c3a61bc149034b),
  (false, 0x135b84e1a7e29a840ce399a8a7790ad85e1fdf91d0b49b5c9334e4cf3f1af0e7),
  (false, 0x16f5b4c6e0398bb94ab0386058c8a5a97dda03d81b59130dc7520add317e20f1),
  (false, 0x316c4187206f0a7b9dccdbc11586404ecf93aa01d8fc35a3999d27ae506202e5),
  (false, 0xcda7f0ebab0a4b778acd766d17c3253658bb54428ff4c8b0c1c2d4b9777306e),
  (false, 0x26bb452c82874caed98a838e443fa1ad46e4bb75e1f82ec99e16fd39f1125b1f),
  (false, 0x4b55363b3f6a7c307d76e4730754df658b4f816b4d9820674876392f0aa0dac),
  (false, 0x13a8ce6e96e343a245af3e7e1ea7c4c0132a80e87abb0537bbaa95e77bc54372),
  (false, 0x1589369769ded44530d0dac73e61ec9d6f42d7e7c872f8361cb3ab27ff476951),
  (false, 0x34b0dcfc60536c2cbc04b751aeff7988ac4146c8da107dfa14d32056b39e8c84),
  (false, 0x3a533415e6519622601b1451107f4200d0208112584caec955d065c1302573a9),
  (false, 0x34c590a589ade19cffd045496eb2f7f1318ff9701c724bf257e2def4ff0ee703),
  (false, 0x1d3369b0b24c6117be1691dbf23a0108a1fbc66db405dd1c602891c955f8d10c),
  (false, 0x1ee033d39a59395b443f2ee9f352ce0655b0ab6c656e035d709b72ae256b3c2),
  (false, 0x1e5d836916ef90aced926088cfca26a8529956139a85c234e5c0fbf4828761cb),
  (false, 0x201268c2796ecc7ee48b19e737152cde7e562e65d92ccf3e1c2d3d9a4f28af3e),
  (false, 0x792853c5e1152bb4f07bdf059176582c2116da5d503fbf1d6f4ad045b7a57ea),
  (false, 0x37de8e6adbd7fc4e29d99887dd818c915cbcfbafaf045f4bb742d1eda252df4),
  (false, 0xe8415e9bb89dfecc50d3f4631af56ce57292108eb24eee33e03313df88319fe),
  (false, 0x18912c77807ea557e622443ad57fb8c28b42a6f2ad6663e199f79859a056b92c),
  (false, 0x2bc85e81eb5d8f4625eb51fb031905b746dea2bb7a3c3f150de96e3e0d452700),
  (false, 0x3d2d7c4f05143e37a60d5a76429740b5896a63426ed2330e7327ca8c9aefe9d7),
  (false, 0x33cb125915fc0cec056097a92875722c98d9526027cb5211f1e05716f44192d2),
  (false, 0x1288e53081e9f532604df592f9d8b20c42e7d0ca2498d5a1a660c9e8ffcd833e),
  (false, 0x21d43a635bb0212e1304200f38e2040f3bb2274782c01424388d25b81fb94408),
  (false, 0x3cbace33f38d80fe6a6c583a1f8b2cc4a7429741876987234f1874155a3f0aba),
  (false, 0x25cf6c17dbf90523c22cf15a9400d1a6003e35d3f73beebbc97a013afbaf7d9c),
  (false, 0x25e9ae59adee1a4a537c033610dff09b42c4857ac3b672b06efadfc23cfa56be),
  (false, 0x1ba42e4859ab0788cb661871a6899e79e699f73b32d12e6ee4c7ae43ec8e19de),
  (false, 0x18bdfa90a882c8a52079c822aece62dee8e145713851e090e5c9fbabe311a767),
  (false, 0x861ab6fd1a7211932c01304b4718e511d51a7664f420ec10023afeb4df7fb43),
  (false, 0x2a1f5d5f6db6bdb5eed40254bf4f0f1c4b390300826211c7dff61b9c3ad3667d),
  (false, 0x1b4277f706158480e80b6668c03b0d75b24beea149da579558250549c63fe9a2),
  (false, 0x24e2540cf9c4cc11ac8abed804b23786196c08e77f4309a9ce9ff3f83473692a),
  (false, 0x1d1929ab3d750f15ebc0ba07c77c7e80b150794fe1b5a48061c199b3031c1fbf),
  (false, 0x1ea5aa0bfe3425bc2c5bd0930d1e06055dbb6bf6a6863446dafaedc994c18d88),
  (false, 0x3ffe8085ca66b58055eafddd62d3d4e4b8b06fd6faf5643948c54b66ad5f72d0),
  (false, 0x21659b7d32e43bc2468c7a8dd858708f4beb34f41a70c39f2869dc429b7d7274),
  (false, 0x3652d92a85a8cec00fff88e796536ccb82d2dc04ed863fcf4a1c0de34d3d1a31),
  (false, 0x688dcb3b0e3f9d0d8b590d850f64469a327f2611326cbc498ee4ecd89b699d7),
  (false, 0x19d257a8832ac87a6f7da3ff043ac38513312e30854e7390b44d1c442fc10f2b),
  (false, 0x149c2075787c1fac192a1be0d5c27987ffa78a5313e2cd879e2b8b1a230663e1),
  (false, 0x23a90d08145f335fe306c75e8f20577e2fd9f260fe8071e8b3b6d57fd4f3ad68),
  (false, 0x1c0ae91038ec24d4684a6d7836c17cfae51f79ec18920d223c463ce3d68322bd),
  (false, 0x1d4135e5c4caec7b4828877fc7ea8ebc7c9b3e39fed100941b826c0f38e41349),
  (false, 0x42939399625c36aec05e9b22328d46bb6c1b078cbccaec48a2eded95fb2e484),
  (false, 0x1277d92234752bfb3ad22d847ac0089850cf7b62b346b2cf923f389a5005a66a),
  (false, 0x3e4c001ec58154d95226f987c28e5fb0ca994c9ea78b022daeb55a2df9877c5b),
  (false, 0x2cb9e8cb89d537724e5c42791ba81cde916eb6cac0048bb96d7e7c90fb9b21ca),
  (false, 0x1f6f579f518998e075ed9bd16cd6807bacafc2bacc038f56867e555c7b4db626),
  (false, 0xff38f21c32f7930fc67af0f15af5231cff43c33ef9fe6c2da9ff26484dd48c8),
  (false, 0xefd36e61313436e74b324a8afedd33511e27e5c13bbe5fb07436a96e47eebd3),
  (false, 0x1c4fe7ec01e8e9068d9a322609be3f8f570d5e54fb22858c1a8c4635b60f6876),
  (false, 0x1347da8d100dfcfe935c3fa35da74ffc2944d0a1eb1bf820ec64786474d35f25),
  (false, 0x7b600f8e25dc0f706f5c8edaf6306f799d7fd81041853499b65dfc86e4a92b1),
  (false, 0x181ce41be6221300e53b80df7ecf8457663ace9756b83b95ec1013f0d5dd9693),
  (false, 0x30fac149a5bca58b440da6648fcc3ee00f669e82c97e96f2fa30e0dea6b08bee),
  (false, 0xa2045f25ae37731e01faf6541c7a08022df669a6deb03a0490d9d1ad86e90e8),
  (false, 0x120c2b46baebc88416bf793536acd50d80a334bb54d3627075b3a87cd550b4af),
  (false, 0xc25ec441254adba26a0d6caecd6f81cca2cc2e1cfbd8d8c2a804092ac857148),
  (false, 0x2616abf8aebb8bee70891893e3b1efd618d248d0265ed4ae8b61648a2cf90185),
  (false, 0xfd11cd6e25739e4bffe1137c43004260a70e99297c8b3d4067b11afbcb5ec06),
  (false, 0x366e3ff338cea12b7712d508a89e4f15662895f9e16fc5dfdaa37b2777481a60),
  (false, 0x188391f47a62e64417ccd1653a98b0bd43d7e5f21ae79ff94d437a0e0208bca5),
  (false, 0x268274ad67bbfb68fd3ada32655407f1dcb429d0c9ee3bee1a8bef2823ae5b18),
  (false, 0x1a2946b2efd94eddf262f61bfe3efd3ef888851d13af816fffa77182b90c18aa),
  (false, 0x256c25f97ba50630f30f5fd20126b5dd7bdebfdc9c93b403177c0fb427b8c057),
  (false, 0x21f71c18d3cd16a89cfe2529de1c0b50b3c17b21a8901e577e0e218d99f7234d),
  (false, 0x3746f21b2645c596e2683b4cb28b11254adb508241f3f4a7d73e0fa26626fe24),
  (false, 0x3644310df14ea911e071700fec102ef2266d040086eb156a88aed031c9afd978),
  (false, 0x3270e7f5ab2b90703a0f3065b42063479981a747fc76275829b8aa1d231f0599),
  (false, 0x1ed92f8b7f3b9c16f8b1db025a26dfe9bf05817d3b9267962bf3d136b79315f0),
  (false, 0x22fca27b463827ffa774f47995bf2c0615924b485b8d94ce1fc8d3666aa2532f),
  (false, 0x2501684fcc95554977908b5738a0d4e6448b0e8911468f2ac824463552f016a9),
  (true, 0x1f0e505d8a13099cf8e45a028d084819d0fc071627fccc541a9180f457389a8f),
  (false, 0x3193597e233134451f297f45811dafd2a2c9a218578a5f38eb7d58d339e85b4d),
  (false, 0x18bea41a9c806853a6c92e625ac75a59eb2f46b4a88640db0e023181468f7333),
  (false, 0x36f533f64bbbeaeb601760172d10146f70dd1afa80a85aa2da1bd940e9ccc7f9),
  (false, 0x3932a72d00597e2139eff00785a1650d31d9cb830f7b4af9564543b30ba4b3e),
  (true, 0x28c425e7d5af4ab524e98836c02114fb680444ed980a3ae2e3e873978bf771c4),
  (false, 0x2c3e7fe6826f0f8d6a22506fa43b82ac9306fcfdbb8d1c0775e0caca08e180be),
  (false, 0x3f1bc0335a05d4ca6b647ab3c1c185c3a7246207b6c48c806bddbb23d84f198b),
  (false, 0x2c2b03407f11ed3a96bf8d2ec07609760092cfa6aa746d70f0fee49a211c6670),
  (true, 0x3f46251ad6f5421c35f72127f081657962a7b280667f3b2409da05f60705eb5),
  (false, 0x2b41507bb4b3afa40509ce2efb77a0b8f63689004a6df90c1587f90cd3003eed),
  (false, 0x16208f8a66ecd2b588e8f1b00df5ca8f3cad7a2a6dfa1ec1e5f8acd34629d4c5),
  (false, 0x1bae80ec272aeb16b75360151ab27361769fe8be744be4c88debdb878c068e60),
  (false, 0x2fa7dd758ce0daa95682a66b9c405bd493676e5d58b125bac0e3102455a147e2),
  (true, 0x1268096efaef0f4a771ff4e5c94a5dd8057c8d778d62244cbae7d845b3e701a0),
  (false, 0x85da822bfd5200cd78d304593a047a4e33715570d43f88dd2132ce188c01bf),
  (true, 0x1b26432d496d51fc96c9dc3abaefb9115ae489235b75c0fa6fb720654d3bc4d2),
  (false, 0xe5f1fe7d73ce557d7519ce56a19df7b068bf3521c51ea2821342f931a808214),
  (false, 0x35260c0af85a4e2142b46a1a0304e7d99aba610c055183a93acb54fd4ecdd839),
  (true, 0x10d1c9bd19938a8dd9ac043a983ed18cc4af8581d3a523c16ec119acdf420264),
  (false, 0x3368666fe0af072de274467dd6c9df4b2fb23ec8dc2aae6d5dceb9795d206d37),
  (false, 0x270ef204de74246466f3084f2d825fd489d2ba419d83ca3298e998ada03370ed),
  (false, 0x14b44bb2b837a4889c9e5144c4fe97eb5e22e612c5e87037c0fdd99027e40f72),
  (true, 0x138821be0f6ff18b4a0240882e1a4fe6afcdb60d12b4535d9f32ec57d5eb8901),
  (false, 0x3834d06a32a91092a19deaaa4308b40d147d16a481791816bccf6a4e3c246434),
  (true, 0x20b979d2360ec2e7d20c4019bdd0bc18476b0fc7200a55162985e7876c6799a0),
  (false, 0x2652f49fcb119aaad937533d6c8e206e0558f78008ca2a405885a8b0725b5be3),
  (false, 0x44af30e31ffbff1a0aa83231cbab9f1708561e1030daf6ac9cff54290747c92),
  (false, 0x2901dbc0c597a94e76bb8071ed6463dae9e3f95a0c3cfcc2a6042b2d40741f50),
  (false, 0xc307940efb30fa1570eada777b9f0194147861959ca004d4aa3ef0d83713b97),
  (true, 0x277557033a465ea81be2145ba31795255433aff014e4fcacebac4154a2805ce2),
  (false, 0x3899984a75fce54d1e983bfd66de1b4589bf974f578274039fdf0982420cd47d),
  (true, 0x14f79c96c800277e624354f12c832f5cfb1e801247ed95631b324f531d0a84ab),
  (false, 0x22085a6858f46effce18f1693fc23b23be68e2d2d94a0c3c77551f7936df2006),
  (true, 0x32b8bc259d557128918296b52c2b4cc159280ce60091a7a157ed4cf2859e30e3),
  (false, 0x1392f5383a3860e54bf5dbe751f6b5ac7da3a0e84ee74c066d517d5ad6401801),
  (true, 0x14a8bcb0dfa6892b8a24e12e57576e76dcfb5d17d4c694646d7282d674e3d753),
  (false, 0x3c2d9ef7b2a2c24beb6484683e5c6a21b59ba218bbc1a173ff772e599cfe806e),
  (true, 0x3128d444e15d38725e30d5ff55033887bd12b71facfaa51a6f68b7f0e08d9f6f),
  (false, 0x6c27106278115a74ec5b7939f0eed21c8bd2b7ddb9b4fc9f37d345668d291c2),
  (true, 0xad457a6d48b58299e05a783cd961baf7c5f03f63843ce45abf1fedb0dae8544),
  (false, 0x2de6a2f478496766321f1768840db33dffd3329f0eb981aea2a77e0c6f5abb9d),
  (false, 0x21b6816248655e458de1021c51525e3b41a93df5261caa66fcbc9a9521fc8983),
  (false, 0xc1ea93276c13593fc05c7de44e7671c1113bc7cf0d5256e56b2fcaeb8b0bca9),
  (false, 0xe1ed8255cd656ef73a2a60fd2f64756e274aa52d4c59b190d3e349fc54c4c19),
  (false, 0x22a1a0e735cae3d08787719dd03ac3dc01a1c8e4795bca8482f2dc062d52e949),
  (false, 0x2fb3b6945447ba2f8dab050e4f668231a60eec4eb758e50937cbac0e4c2c353a),
  (false, 0x2166881b0f0e765628d2f8f8e1f936ca5eca7a7ad40d65cb23b6f107b4a7ed95),
  (true, 0x1aa8c9687a9ee568b28818187ab34b8bad00d0bea57fdc1ced88055b499c5352),
  (false, 0x2d86f2562db87b21c1c2264e62dbd1a128a75698017d93c975fb0a27832e7985),
  (false, 0x1449020f90d23b313f05f959e115ecbd0eef7d8170776c76ee33f0115a016a59),
  (false, 0x3b983b2b8e86e4bc7f1c0286c8895c877fe0dbdef1680e638c2c60f6f370eb13),
  (true, 0x35ed7aeacbc7510070b19a71792b2e81a7387cda14dc2015d92ed5d7344e0bfd),
  (false, 0x39a0b52846da02b1e76a261f062138f564b6f941005a99a1ca540f4d3f1a333e),
  (true, 0x146e60414f28f49cdc9887272f9cf8dc815bdda4a0d4a281ea6083eff086e2),
  (false, 0xd3d35d5baf371e91fe9650fd54f362db2e645b02a71e1a73a83600476b7cbd5),
  (false, 0xf5242c30048b0af57b4b07d05e16c6b69ded984da1e90b8a71bb2b98e87af13),
  (false, 0x1de7d0f76d99da91dc4bac9c4557265fff2cbff295aab578e83d293c48731a23),
  (true, 0x1ec06682a1fb581b0c8872b7ddc03be6c9ab610b2d18d867cb53928d7e668a29),
  (false, 0x123167781e5ceba01b8c1a62174a98351da2afed6d63e22caa169dae7d81bc77),
  (false, 0x2cc25b75aa91ca9fd03897c1a624c866e71caa54b508b4b06cf6995612fdf88b),
  (true, 0x3aad935a3e3758f53bba7089916fbe39c8804378a6a16a36ce468fa29c3ec8f5),
  (false, 0x230a71ee90d5326b565f1dcbbfd2efc52d60d7bd00048308682a9610ba0b755d),
  (false, 0x1bd3fce427e10d4a15b9a920587e8d682bf3ab5f2afddf60f390a08dba1b479b),
  (false, 0x1ac3c9e8d213d9537fd5fdf277055babed6f85cdc008fafe806fce5a59108a1f),
  (true, 0x1616cdb6038c74be737a0f2e99a044323d4997c9312e278b4a55a26bf4ee8738),
  (false, 0x2095c1a89513c68969652e605b6af8d6d0ef0b49c9202145dee113838301d229),
  (false, 0x27014584f78faaaffed81d8701a344b25c157c90e23c6ebba24bb96dca5b0ffe),
  (true, 0x35cd2ab23c1f9b26604310b338304578f2634b852c174c051cd644569171e77e),
  (false, 0x364c36de7ae2bd1e23c410e35ffcbb71ad97703467c045f77d81170332ff531a),
  (false, 0x265a78d1d924ba823d9dc30fd0482690d6ff076cb73c78c9e1b0def47964ef9b),
  (true, 0x170ee745a2b695c4dd67f3eaed8cce198901591ac0c3f9141e64fd225bf07282),
  (false, 0x3b43f6a75090a9f1747fb9cac295354314bbdda3f360eb05cafbe2620dfd0dc3),
  (false, 0x721a1cae9e87c7c958e05228a3ce3e0a64fe3471a1624a1ecdd89ae31d7f83f),
  (false, 0x18bb9e5aabf47dede5807bca7c1aa28840a74f645e857561da1dff6a38a9f37),
  (false, 0x31ba11f2a339be070fa40e357f5e8e9ad1ae5a8ee626f9ee207face4e94904cd),
  (true, 0x222db7144e9ded7d7475ef485a2c66993dea494b7c75d6b08eb3f2433c2329f),
  (false, 0x186b37cb0cfd5503e63a24bae0b956a8ed50426bcf51ac00f7023eb153bce7d9),
  (true, 0xa614b165ee968b8b05d075b1cdf66ce53911a73cd66a0fca38baf59871800fe),
  (false, 0x4178aefff3c76af31c63ab59a78897142025b6fe37352b83132f56d2a42f97),
  (false, 0x29b7fce97282997e41cf15d07b0893ea6a6dec2a3e04b086339e3507d4fa71f3),
  (true, 0x125290e98cdede25b992b2fa76fede18b6a50de16feec51a6af3152aff0c2678),
  (false, 0x276309f59f822fc6de20b74856c85825f29e2131862f4f022d68755c10feb036),
  (true, 0x9afc20aade47ff2b5edcaedecc14edc7f7fb8ad791074381c1d549bbbebdb32),
  (false, 0x1a4c0795b051b1bc97e16e061046a533b842e701c657cc1835252cc893a6e8e9),
  (true, 0x1f6eb9aad979d93890c0298e27af4c9cc411dc76d15e444d9ccf24f496715c7),
  (false, 0x25a10f9724b7758d1467d8e26406b0fe876d52e993b5e46269a62ea554a0d051),
  (false, 0x1f46f5b1136fceb0747ab98d5e364c227f70104f450a743550354c7ebc4afe07),
  (true, 0x1db565427959d03232d9736eb921184104bc72d1304ee4d216d98652d395f5b2),
  (false, 0x323501ff5938daf2831d7ef857d75ef8e87e06fed9d4782b88ca58e0a44f8c44),
  (true, 0x89a96c16e000865757b91a764085606687adf2300743c1cc9b660d4990d4b4e),
  (false, 0x2da52695afe51e8ecd94af15f5f564e63b4449af05663d83534081ac80bfa5c3),
  (false, 0xec56fb6f6c580f5ce0fe0ca4dd93a5b5584af187349d104804e1bd7c0370542),
  (false, 0x3d760c45a2fc1c84f4ff98196ed97e58e242b80667bac2e929c30a92227f2419),
  (false, 0x29265348f146089cd228ac247fee895ba4a755a469cb0a19e0993142f91eda30),
  (true, 0x13f133b92538259772e6c56fb85c8a77326ca1a21d33daf4aa6bfb788e6a6736),
  (false, 0x33da222c7a08d5f162bbd7dba8ac40ee6bbc39adb6b2c6aaa560f8358f3da6d5),
  (true, 0x6faad8275d0ca699a5728c29e6e5b3d8d33fd4425ea5bbd6c8fde8be6a3ce3d),
  (false, 0x249261ab244e66e8f049fabc0a7f66d92c52b32919497e622dc29a987b10d09d),
  (false, 0x2ae010b0e8bec9cce76f5b5e870f5ef1452a6d5504195a6f3bda79f799a56210),
  (false, 0x2b015232ab890fb921f9060ffcdf0903ed5fce76d26153dd7a61895cfeb64bb6),
  (false, 0x3c58dedd0e7457984248ab36fa69fe4f8e26f3fcb881080bfa9a5312e112a650),
  (true, 0x1f91b34a7e3346f13d62417299378db49491ee19bf39669d99dfbac746358b79),
  (false, 0x38fc599fa29838611aae9cecee299e7fa139e7fc3018f15ac5943317138dd833),
  (false, 0x321cb0dbe037278f66efffd6891caa648b501081b0228777737c3954c91762a9),
  (false, 0x288ab73d3baac850bf1ac989dcf0ea2853231f511e4cb22ed0065140e824e43e),
  (false, 0x2e1970bf5663935f3b145de3a242de19235e25beb5e49bbfdfbeb7b9248f0e1c),
  (true, 0x25ffaa0fbe2cfc0e337576b9e5cbcf142e2e765ee2abd4b65acf39334232f70a),
  (false, 0x2d90ae50a14c76305cd177cf231d01b05b13d8a9775336d2412ff01c51ab9b41),
  (true, 0x1513053bedb49184670a5b53b57fa77c50437c9a4e49233df8f4eda55b8df7c),
  (false, 0x3259cf99e4082c890473f09eb9b0f58f9cdf74a1ad9f3e8df763c31d2cf555f4),
  (false, 0xe1724b6598a384ad51137e4c5a0015c89698259569d6f53c7a9abd5a25a38ad),
  (true, 0x47775530b230df7dd976e1134f92613010a67319b15ed68332485d0e068cff2),
  (false, 0x2c734081cf3cabdb792d2d0d2a86a3c11ad86be8cfb2135afcc9b789532324ec),
  (true, 0x360948175f40943b7e8c83a8ebd5b63860b5dc891c4c986e204838420b3da57),
  (false, 0x3b447d842e7475b5b7c4855a13b30556e294d0cd2cea6a17be1d02e4dc0cff88),
  (true, 0x25b139dffebf3c4e4784f1a3c83d0f6f8236bd6cd04f8f7a4d05771f118049ed),
  (false, 0x1542e2a66de9d96389c7d3ad591ddd3f943aa9b5ab087acff4da3a615d72e2cb),
  (false, 0x28288d7b15a64b03728a4439a6bfddef82da9d4c8116500a7a94de2197223108),
  (true, 0x2d6916c079900cbef02f2670b7a4442de0e1301f4f85374e8603e381fa16d4f),
  (false, 0x2b5682f60724e809cb698782f984aa9f958660d58982b41765db7f8571f8c294),
  (false, 0x1f81de15efa0311d688fc4df26389bdf284b54a1958fe1c01f68b6555d06d570),
  (true, 0x1dcd80fa07c2e30e85fe2ea4e1d2990bf06d62fb8637514bfe89b6b1c60ad29a),
  (false, 0x22ede56513e65fac1c7e339ed7577f7bdf7466b11cf3ea93bf1d290f71b25984),
  (true, 0x21ff543614201cea8db1f5ea0d4066065312ecb7bcb6a175c1df4b5d530c3a28),
  (false, 0x838c55a6f085d47f3b232ab45781b958ec384b9858d573156638a7c9f659e25),
  (false, 0x6feef03d6311c5b6615f34b04f8f72e9af8fbb70af15433e9ab59ff3490b9e2),
  (false, 0x2e01b5e7d453a5b4fc5e6201eda8e2224e503c078699a4aae5de3ba3acc95024),
  (true, 0x4baecab66c07e810ac38254aa9a0aab47243ab3a95966bc2f2bec3149003f9),
  (false, 0x299cdcb701796ddee4f97539b420d76eac243d90274183d3230e24c5578da8f2),
  (false, 0x24085abb920b36069209f9745c791204051cb8994454460dc889edefe6d15550),
  (false, 0x2e47deecdaa2e7eab10a629729fc69d899222cf142496ed95b6805b7e636a66e),
  (false, 0x34eb04a043d0e2d282cfb860ef10b2e011c9d173348830b785369bdf8caca5a9),
  (false, 0x4689127affd0f3a2862b934e73f81eab18c0021d99be397afde6fa058c65def),
  (true, 0x32aa770f7d20de2eedc75c72c6fad41abd7957ce3d8949c2dfc1146789b60837),
  (false, 0x1ef87d3034f5a3826ed0e39f5fd060804e73993769e3c4ec7ceacfe683c1f0b5),
  (false, 0x272dee07ec42059174f27bb36c8589b1e9aef9dd9b39ea55d4bc625698e3b5c),
  (false, 0x3c1195768b7552f2f85d9a935e6aa4b32ca004536ff69ce2c0a4b1cba1f08799),
  (false, 0x37be4509f6c55f26092b573c8948c43d54aeffdfe12c9f1f1b46766820aa7409),
  (false, 0x2399c674202247940ed23b7869bdc441db53118d91ef314281bfc0c1d6849165),
  (false, 0x2e78c12a1b7d47402882e5f0db1894c4aa5ac250fb60aea9af0672dc1dbef438),
  (false, 0xcdb00d8549651a0d98726e39820398e67db36a39bdfe3410ec8763ecf59379),
  (false, 0x17cfea8dd063c1f98c4b4262c1e2e09135393d9c6fe5643a68b1d8da04961871),
  (false, 0x69668274a3fc8baba7863bc1ffcff74468ab92f9cf485b4bd8296190822eca4),
  (false, 0x22f60ecac3600c6dec885e5927909707520a60dabb4d675fbdb695d95f926816),
  (false, 0x159bf42c0b0306645a15455070cad3641389d2fe5e12f925c5ceda33c0f4dc05),
  (false, 0x2aa8e542298bd461b4cfd1bd1855b62243a626a39e86b81734283f85d8ba557),
  (false, 0x36f73e535721cb1c9bdf1f9da9170e0386590ba97571ccf8b7a6dc0fdad85469),
  (false, 0x1b5f3500303f71a8c094a63019982dec05db73aa7820c25bf1cb27e1c9780290),
  (false, 0x22130f0331e281e07d47831f4a995b8cad1555dfbc68c084cbeba461ebf82712),
  (false, 0x106697dad3edbd7ec1e0485e9ac8bfd5f8169c4be572802ebfcac51f0cd7d117),
  (false, 0x33897d9a33aab3f3633f03887db643ee117b0d4226ba080a02b9c13846e274b9),
  (false, 0x1b32419769bf73771eef5222d82827d10ed80536e98013bbcd041e47d4a8d908),
  (false, 0x372dcd2b4950e40799db104796db28ab189144542faadfa3fa6ae213fae92d33),
  (false, 0x28abccd70a1415725dd7ab2833a715530612e7dded0ef5dcf4a77cdcded7aff7),
  (false, 0x26593159fb3aff1f00b7f5755bd1e311dbb8e4433cd9c5ed3a30ff49c7681ae3),
  (false, 0x33549baaf44eb3e2b5b22fb8bba4a929228db0f4bf6575f06091ef68c3132edd),
  (false, 0x1c63ab0f7884bec355ea7b1df22dd7046a077311581f966e7b34965d605b4a9),
  (false, 0xdb284b5947f80ea3791de792ff583bb87aa21f856eede8541bf082d146506db),
  (false, 0x3216ae50f7b3b39e23dec2efa7b01b62a661d297b54f62d88ee5c28024a3b4fb),
  (false, 0x3f07a68a946b03cbb5d34c6d7b8ee58cb0f45bb154b1cf8a883b31f3177822f0),
  (false, 0x12a32416e25f0ab187691e179f63fbea44c60e633f6bf174ab0f5d7cc69a4947),
  (false, 0x278bf32df1104a540f20501936adeb59334c107e01b28a4d1cf4713510e67a07),
  (false, 0x156b26b7e01261c5f34be9cbc77bcffce7a53682411d4cc5463629c337c721fd),
  (false, 0x8da308ac4c8485e12b3c2a3cdb937610f3b9348d24bdbdda721c0683f94d8e2),
  (false, 0x7cb6e8c8b567d47ebd68f00fa0d947bec71cfea763548eb9f206a6233950441),
  (false, 0x20741218522d5befa0ee59cbe0278c79bc1fe650d0ba73de0a412592c1dbab63)]

theorem certQ_ok : certRun certQ (1, p - 1, 2) = some (q - 1, p - 1, p - 2) := by decide +kernel

theorem q_sub_one_genG : (q - 1) • genG = -genG := by
  have h0 : certInv (1, p - 1, 2) := by
    have hcast : ((p - 1 : ℕ) : Fp) = -1 := by rw [cast_p_sub (by decide +kernel)]; simp
    refine ⟨by simp only [hcast]; norm_num, ?_⟩
    simp only [one_nsmul, genG, Point.ofXY_inj, hcast]
    simp
  obtain ⟨h, he⟩ := certRun_sound certQ _ _ certQ_ok h0
  have hcast : ((p - 1 : ℕ) : Fp) = -1 := by rw [cast_p_sub (by decide +kernel)]; simp
  have hcast2 : ((p - 2 : ℕ) : Fp) = -2 := by rw [cast_p_sub (by decide +kernel)]; simp
  simp only at he
  rw [he, genG, Point.neg_ofXY, Point.ofXY_inj]
  exact ⟨hcast, hcast2⟩

theorem q_nsmul_genG : q • genG = 0 := by
  have : q = (q - 1) + 1 := by decide +kernel
  rw [this, succ_nsmul, q_sub_one_genG, neg_add_cancel]

/-! ### Counting points -/

/-- `x` and the parity of `y` determine a point (this is also why compression is injective). -/
theorem eq_of_sq_eq_of_parity {y y' : Fp} (h : y ^ 2 = y' ^ 2) (hp : y.val % 2 = y'.val % 2) :
    y = y' := by
  rcases sq_eq_sq_iff_eq_or_eq_neg.1 h with h | h
  · exact h
  · subst h
    by_cases h0 : y' = 0
    · subst h0; simp
    · rw [ZMod.neg_val, if_neg h0] at hp
      have h1 : y'.val < p := ZMod.val_lt y'
      have h2 : p % 2 = 1 := by decide +kernel
      omega

/-- Compression as a function: `none` for the identity, otherwise `(x, parity of y)`. -/
def Point.toPair : Point → Option (Fp × Bool)
  | .zero => none
  | .some x y _ => some (x, decide (y.val % 2 = 1))

theorem Point.toPair_injective : Function.Injective Point.toPair := by
  intro P Q h
  rcases P with _ | ⟨x, y, hP⟩ <;> rcases Q with _ | ⟨x', y', hQ⟩ <;> simp [Point.toPair] at h
  · rfl
  · obtain ⟨rfl, h⟩ := h
    have h1 := (pallas_nonsingular_iff _ _).1 hP
    have h2 := (pallas_nonsingular_iff _ _).1 hQ
    have : y = y' := eq_of_sq_eq_of_parity (h1.trans h2.symm) (by omega)
    subst this; rfl

instance : Finite Point := Finite.of_injective _ Point.toPair_injective

theorem card_le : Nat.card Point ≤ 2 * p + 1 := by
  have := Nat.card_le_card_of_injective _ Point.toPair_injective
  refine this.trans ?_
  rw [Nat.card_eq_fintype_card, Fintype.card_option, Fintype.card_prod, ZMod.card]
  simp [mul_comm]

theorem genG_ne_zero : genG ≠ 0 := Point.ofXY_ne_zero _ _ _

theorem addOrderOf_genG : addOrderOf genG = q :=
  addOrderOf_eq_prime q_nsmul_genG genG_ne_zero

/-- The Pallas group has exactly `q` elements. -/
theorem card_Point : Nat.card Point = q := by
  have hd : q ∣ Nat.card Point := addOrderOf_genG ▸ addOrderOf_dvd_natCard genG
  obtain ⟨c, hc⟩ := hd
  have hpos : 0 < Nat.card Point := Nat.card_pos
  have hle := card_le
  have hq : 2 * p + 1 < 2 * q := by decide +kernel
  have hc1 : c = 1 := by
    rcases c with _ | _ | c
    · simp at hc; omega
    · rfl
    · exfalso
      have : q * (c + 1 + 1) ≥ 2 * q := by nlinarith
      omega
  rw [hc, hc1, mul_one]

theorem q_nsmul (P : Point) : q • P = 0 := by
  have := card_nsmul_eq_zero' (x := P)
  rwa [card_Point] at this

/-- Scalars of `pallas::Scalar` act on the group. -/
instance : Module Fq Point := AddCommGroup.zmodModule q_nsmul

/-- Mathlib's `zero_smul` does not unify with the instances found on `Point`. -/
@[simp] theorem zero_smul (P : Point) : (0 : Fq) • P = 0 := by module

theorem natCast_smul (n : ℕ) (P : Point) : ((n : Fq)) • P = n • P := Nat.cast_smul_eq_nsmul _ _ _

theorem smul_eq_zero_iff' {s : Fq} {P : Point} : s • P = 0 ↔ s = 0 ∨ P = 0 := smul_eq_zero

/-- Every point is a multiple of any non-identity point. -/
theorem exists_smul_of_ne_zero {B : Point} (hB : B ≠ 0) (P : Point) : ∃ s : Fq, P = s • B := by
  have hinj : Function.Injective (fun s : Fq => s • B) := by
    intro s t h
    have : (s - t) • B = 0 := by rw [sub_smul]; exact sub_eq_zero.2 h
    rcases smul_eq_zero.1 this with h | h
    · exact sub_eq_zero.1 h
    · exact absurd h hB
  have : Fintype Point := Fintype.ofFinite _
  have hcard : Fintype.card Fq = Fintype.card Point := by
    rw [ZMod.card, ← Nat.card_eq_fintype_card, card_Point]
  have hbij := (Fintype.bijective_iff_injective_and_card _).2 ⟨hinj, hcard⟩
  obtain ⟨s, hs⟩ := hbij.2 P
  exact ⟨s, hs.symm⟩

theorem two_smul_ne_zero {P : Point} (hP : P ≠ 0) : P ≠ -P := by
  intro h
  have h2 : (2 : Fq) • P = 0 := by
    rw [two_smul]; nth_rewrite 1 [h]; exact neg_add_cancel P
  rcases smul_eq_zero.1 h2 with h | h
  · exact absurd h (by decide +kernel)
  · exact hP h

/-- No point has `y = 0` (there is no point of order two). -/
theorem y_ne_zero_of_onCurve {x y : Fp} (h : y ^ 2 = x ^ 3 + 5) : y ≠ 0 := by
  rintro rfl
  refine two_smul_ne_zero (Point.ofXY_ne_zero x 0 h) ?_
  rw [Point.neg_ofXY, Point.ofXY_inj]; simp

end Orchard
