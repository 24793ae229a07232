import Verif.Crypto.EvalChaCha
import Verif.Crypto.EvalKeys
import Verif.Props.NoteEncryption
import Verif.Props.Generators
import Verif.Vectors.KeysEval

/-! # Evaluating the test of note encryption -/

namespace Orchard.Vectors

open RedPallas Compute

/-- What the test needs.  Decryption is not evaluated: that it inverts encryption are C42 and C43. -/
theorem noteEncryptionTest_intro {P : Prims} {tv : NoteEncryptionVector} {dk : Bytes 32} {ivk esk : Fq} {cv : Point}
    {rho psi cmx : Fp} {rcm : Fq} {pkd cm : Point} (hP : P.hashToCurve keyDiversificationPersonalization [] ≠ 0)
    (h1 : IncomingViewingKey.fromBytes tv.incomingViewingKey = .ret (some ⟨dk, ivk⟩))
    (h2 : pkd.toBytes = tv.defaultPkD) (h2' : pkd ≠ 0)
    (h3 : cv.toBytes = tv.cvNet)
    (h4 : Fp.fromRepr tv.nfOld = some rho)
    (h5 : Fp.fromRepr tv.cmx = some cmx)
    (h6 : eskFromBytes tv.esk = some esk)
    (h7 : RandomSeed.eskInner P tv.rseed rho = some esk)
    (h8 : (esk • pkd).toBytes = tv.sharedSecret)
    (h9 : kdfOrchard P (esk • pkd) tv.ephemeralKey = tv.kEnc)
    (h10 : prfOck P tv.ovk ⟨cv⟩ tv.cmx tv.ephemeralKey = tv.ock)
    (h11 : pkd = ivk • diversifyHash P tv.defaultD)
    (h12 : RandomSeed.psi P tv.rseed rho = psi) (h13 : RandomSeed.rcm P tv.rseed rho = rcm)
    (h14 : noteCommitDerive P (diversifyHash P tv.defaultD).toBytes pkd.toBytes (NoteValue.fromRaw tv.v) rho psi rcm =
      some cm)
    (h15 : extractP cm = cmx)
    (h16 : (esk • diversifyHash P tv.defaultD).toBytes = tv.ephemeralKey)
    (h17 : notePlaintextBytes ⟨⟨tv.defaultD, pkd⟩, NoteValue.fromRaw tv.v, rho, tv.rseed⟩ tv.memo = tv.pEnc)
    (h18 : outgoingPlaintextBytes ⟨⟨tv.defaultD, pkd⟩, NoteValue.fromRaw tv.v, rho, tv.rseed⟩ esk = tv.op)
    (h19 : aeadEncrypt P tv.kEnc tv.pEnc = tv.cEnc)
    (h20 : aeadEncrypt P tv.ock tv.op = tv.cOut) (rk : VerificationKey .spendAuth) :
    noteEncryptionTest P rk tv = .ret () := by
  have e2 : pkdFromBytes tv.defaultPkD = some pkd := nonIdentityFromBytes_eq_some.2 ⟨h2.symm, h2'⟩
  have e3 : ValueCommitment.fromBytes tv.cvNet = some ⟨cv⟩ := by
    unfold ValueCommitment.fromBytes
    rw [← h3, Point.fromBytes_toBytes, Option.map_some]
  have e5 : Fp.toRepr cmx = tv.cmx := by
    unfold Fp.fromRepr at h5
    split at h5
    · next h =>
      rw [← Option.some.inj h5]
      exact fp_toRepr h rfl
    · exact absurd h5 (by simp)
  have e7 : RandomSeed.fromBytes P tv.rseed rho = some tv.rseed := by
    unfold RandomSeed.fromBytes
    rw [h7, Option.isSome_some, if_pos rfl]
  generalize hn : (⟨⟨tv.defaultD, pkd⟩, NoteValue.fromRaw tv.v, rho, tv.rseed⟩ : Note) = note at h17 h18
  have hcm : Note.commitmentInner P note = some cm := by
    subst hn
    unfold Note.commitmentInner Address.gd
    dsimp only
    rw [h12, h13, h14]
  have hnote : Note.fromParts P ⟨tv.defaultD, pkd⟩ (NoteValue.fromRaw tv.v) rho tv.rseed = some note := by
    unfold Note.fromParts
    dsimp only
    rw [hn, hcm, Option.isSome_some, if_pos rfl]
  have hcmx : Note.cmx P note = .ret cmx := by
    unfold Note.cmx Note.commitment
    rw [hcm, Option.unwrapO_some, Outcome.ret_bind, h15]
    rfl
  have hesk : Note.esk P note = .ret esk := by
    subst hn
    unfold Note.esk RandomSeed.esk
    dsimp only
    rw [h7, Option.unwrapO_some]
  have hs : Spec.esk P note.rseed note.rho ≠ 0 := by
    intro h0
    have : RandomSeed.eskInner P note.rseed note.rho = none := by rw [eskInner_eq, if_pos h0]
    subst hn
    rw [h7] at this
    exact absurd this (by simp)
  have henc : encryptNote P (some tv.ovk) note tv.memo ⟨cv⟩ cmx default default =
      .ret ⟨tv.ephemeralKey, tv.cEnc, tv.cOut⟩ := by
    unfold encryptNote
    rw [hesk, Outcome.ret_bind]
    have a1 : kaDerivePublic P note esk = esk • diversifyHash P tv.defaultD := by subst hn; rfl
    have a2 : eskAgree esk note.recipient.pkd = esk • pkd := by subst hn; rfl
    have a3 : cmxToBytes cmx = tv.cmx := e5
    dsimp only
    rw [a1, a2, a3, h16, h9, h10, h17, h18, h19, h20]
    rfl
  have hsc : Spec.noteCommitOf P note.recipient.d note.recipient.pkd note.value.inner.toNat note.rho note.rseed =
      some cm := by
    rw [← commitmentInner_eq, hcm]
  have hrec : note.recipient = ⟨tv.defaultD, pkd⟩ := by subst hn; rfl
  have hrho : note.rho = rho := by subst hn; rfl
  obtain ⟨enc, b1, b2⟩ := C42_recipient_decrypts (T := Unit) P hP ivk note tv.memo (some tv.ovk) default default
    (by rw [hrec]; exact h11) hs cm hsc ⟨cv⟩
  obtain ⟨enc', b1', b2'⟩ := C43_sender_recovers (T := Unit) P note tv.memo tv.ovk default default
    (by rw [hrec]; exact h2') hs cm hsc ⟨cv⟩
  rw [h15, henc] at b1 b1'
  obtain rfl := Outcome.ret.inj b1
  obtain rfl := Outcome.ret.inj b1'
  obtain ⟨c1, c2⟩ := b2 ⟨rho, rk, cmx, ⟨tv.ephemeralKey, tv.cEnc, tv.cOut⟩, ⟨cv⟩, ()⟩ hrho.symm h15.symm rfl
  have c3 := b2' ⟨rho, rk, cmx, ⟨tv.ephemeralKey, tv.cEnc, tv.cOut⟩, ⟨cv⟩, ()⟩ hrho.symm h15.symm rfl rfl
  rw [hrec] at c1 c2 c3
  have a2 : eskAgree esk pkd = esk • pkd := rfl
  unfold noteEncryptionTest
  simp only [h1, Outcome.ret_bind, Option.unwrapO_some, e2, e3, nullifierFromBytes, h4, cmxFromBytes, h5, h6, e7, a2, h8,
    decide_true, assertO_true, h9, cmxToBytes, e5, h10, hnote, hcmx, c1, c2, c3, hesk, henc, h17, h18]

/-- Intermediate values of a vector, as numbers: `g_d`, `pk_d`, the points behind `cv_net`, `epk` and the shared secret,
`ψ`, `rcm`, and the commitment. -/
structure NoteEncryptionWitness where
  gx : ℕ
  gy : ℕ
  px : ℕ
  py : ℕ
  vx : ℕ
  vy : ℕ
  ex : ℕ
  ey : ℕ
  sx : ℕ
  sy : ℕ
  psi : ℕ
  rcm : ℕ
  cm : ℕ × ℕ × ℕ × ℕ × ℕ × ℕ

theorem rep_exists {x y : ℕ} (h : Nat.beq (y * y % p) ((x * x * x + 5) % p) = true) :
    ∃ A : Point, Rep (some (x, y)) A := by
  have e : (y : Fp) ^ 2 = (x : Fp) ^ 3 + 5 := by
    have := congrArg (Nat.cast : ℕ → Fp) (Nat.eq_of_beq_eq_true h)
    rw [ZMod.natCast_mod, ZMod.natCast_mod] at this
    push_cast at this
    rw [pow_two, this]
    ring
  exact ⟨Point.ofXY x y e, rep_ofXY_intro rfl rfl⟩

theorem hash32_nat (pers : String) {l : List UInt8} {len a b N : ℕ} (h0 : leNat ((ascii pers).take 8) = a)
    (h1 : leNat (((ascii pers).drop 8).take 8) = b) (hlen : l.length = len) (hl : len < 2 ^ 32) (hN : leNat l = N) :
    (Prims.zcash.blake2b256 (ascii pers) l).toNat = digestK 32 a b N len % 256 ^ 32 := by
  subst hN h0 h1 hlen
  rw [zcash_blake2b256]
  show leNat (leBytes 32 _) = _
  rw [leNat_leBytes, digestK_eq _ _ _ (by omega)]

/-- `kdf_orchard`, packed. -/
noncomputable def kdfK (s e : ℕ) : ℕ := digestK 32 0x724f5f687361635a 0x46444b6472616863 (s + 256 ^ 32 * e) 64 % 256 ^ 32

theorem kdf_nat {S : Point} {e : Bytes 32} {s : ℕ} (hs : S.toBytes.toNat = s) :
    (kdfOrchard Prims.zcash S e).toNat = kdfK s e.toNat :=
  hash32_nat "Zcash_OrchardKDF" (by decide +kernel) (by decide +kernel)
    (by rw [List.length_append, Bytes.length_toList, Bytes.length_toList]) (by norm_num) (leNat_append_bytes hs rfl)

/-- `prf_ock_orchard`, packed. -/
noncomputable def ockK (o v c e : ℕ) : ℕ :=
  digestK 32 0x724f5f687361635a 0x6b636f6472616863 (o + 256 ^ 32 * (v + 256 ^ 32 * (c + 256 ^ 32 * e))) 128 % 256 ^ 32

theorem leNat_append4 (a b c d : Bytes 32) : leNat (a.toList ++ b.toList ++ c.toList ++ d.toList) =
    a.toNat + 256 ^ 32 * (b.toNat + 256 ^ 32 * (c.toNat + 256 ^ 32 * d.toNat)) := by
  rw [List.append_assoc, List.append_assoc, leNat_append, leNat_append, leNat_append]
  simp only [Bytes.length_toList]
  rfl

theorem ock_nat {o c e : Bytes 32} {V : Point} {v : ℕ} (hv : V.toBytes.toNat = v) :
    (prfOck Prims.zcash o ⟨V⟩ c e).toNat = ockK o.toNat v c.toNat e.toNat := by
  subst hv
  exact hash32_nat "Zcash_Orchardock" (by decide +kernel) (by decide +kernel)
    (by simp only [List.length_append, Bytes.length_toList]) (by norm_num) (leNat_append4 _ _ _ _)

theorem plaintext_nat {n : Note} {memo : Bytes 512} {b : Bytes 564}
    (h : b.toNat = 2 + 256 * (n.recipient.d.toNat + 256 ^ 11 * (n.value.inner.toNat + 256 ^ 8 * (n.rseed.toNat +
      256 ^ 32 * memo.toNat)))) : notePlaintextBytes n memo = b := by
  apply Bytes.toNat_injective
  rw [h]
  show leNat (notePlaintextBytes n memo).toList = _
  have hv : leNat (leBytes 8 n.value.inner.toNat) = n.value.inner.toNat := by
    rw [leNat_leBytes, Nat.mod_eq_of_lt (lt_of_lt_of_eq n.value.inner.toNat_lt (by norm_num))]
  rw [(C41_layout n memo).1, List.append_assoc, List.append_assoc, List.append_assoc, leNat_append, leNat_append,
    leNat_append, leNat_append, hv, Bytes.length_toList, Bytes.length_toList, length_leBytes, List.length_singleton,
    Nat.pow_one]
  rfl

theorem outgoing_nat {n : Note} {esk : Fq} {b : Bytes 64} {k e : ℕ} (hk : n.recipient.pkd.toBytes.toNat = k)
    (he : (Fq.toRepr esk).toNat = e) (h : b.toNat = k + 256 ^ 32 * e) : outgoingPlaintextBytes n esk = b := by
  apply Bytes.toNat_injective
  rw [h]
  exact leNat_append_bytes hk he

/-- All checks of a vector. -/
noncomputable def noteEncryptionOk (tv : NoteEncryptionVector) (w : NoteEncryptionWitness) : Bool :=
  force (tv.incomingViewingKey.toNat / 256 ^ 32) fun ivk => force tv.nfOld.toNat fun rho => force tv.rseed.toNat fun rs =>
  force tv.esk.toNat fun esk => force tv.ephemeralKey.toNat fun e => force tv.kEnc.toNat fun ke =>
  force tv.ock.toNat fun ock => force tv.pEnc.toNat fun pt => force tv.op.toNat fun op =>
  !Nat.beq ivk 0 && (Nat.blt ivk p && (Nat.blt rho p && (Nat.blt w.cm.2.2.2.2.1 p && (!Nat.beq esk 0 && (Nat.blt esk q &&
  (Nat.blt w.gx p && (Nat.blt w.gy p && (Nat.blt w.px p && (Nat.blt w.py p && (Nat.blt w.vx p && (Nat.blt w.vy p &&
  (Nat.blt w.ex p && (Nat.blt w.ey p && (Nat.blt w.sx p && (Nat.blt w.sy p &&
  (Nat.beq tv.defaultPkD.toNat (encK w.px w.py) && (Nat.beq tv.cvNet.toNat (encK w.vx w.vy) &&
  (Nat.beq e (encK w.ex w.ey) && (Nat.beq tv.sharedSecret.toNat (encK w.sx w.sy) &&
  (Nat.beq tv.cmx.toNat w.cm.2.2.2.2.1 &&
  (Nat.beq (w.vy * w.vy % p) ((w.vx * w.vx * w.vx + 5) % p) &&
  (hashIs gdTag (HashToCurve.dst keyDiversificationPersonalization).length tv.defaultD.toNat 11 w.gx w.gy &&
  (mulIs w.gx w.gy ivk w.px w.py && (mulIs w.gx w.gy esk w.ex w.ey && (mulIs w.px w.py esk w.sx w.sy &&
  (Nat.beq (prfK 4 rs rho 32 % q) esk && (Nat.beq (prfK 9 rs rho 32 % p) w.psi &&
  (Nat.beq (prfK 5 rs rho 32 % q) w.rcm &&
  (noteOk (encK w.gx w.gy) (encK w.px w.py) tv.v.toNat rho w.psi w.rcm w.cm &&
  (Nat.beq (kdfK (encK w.sx w.sy) e) ke && (Nat.beq (ockK tv.ovk.toNat (encK w.vx w.vy) tv.cmx.toNat e) ock &&
  (Nat.beq pt (2 + 256 * (tv.defaultD.toNat + 256 ^ 11 * (tv.v.toNat + 256 ^ 8 * (rs + 256 ^ 32 * tv.memo.toNat)))) &&
  (Nat.beq op (encK w.px w.py + 256 ^ 32 * esk) &&
  (Nat.beq (aeadK ke pt 564 9) tv.cEnc.toNat && Nat.beq (aeadK ock op 64 1) tv.cOut.toNat))))))))))))))))))))))))))))))))))

theorem ivkFromBytes_nat {b : Bytes 64} {n : ℕ} (hn : b.toNat / 256 ^ 32 = n) (h0 : n ≠ 0) (hp : n < p) :
    IncomingViewingKey.fromBytes b = .ret (some ⟨b.slice 0 32 (by norm_num), (n : Fq)⟩) := by
  have hs : (b.slice 32 32 (by norm_num)).toNat = n := by
    have hb : b.toList = (b.slice 0 32 (by norm_num)).toList ++ (b.slice 32 32 (by norm_num)).toList := by
      rw [Bytes.toList_slice, Bytes.toList_slice, List.drop_zero, List.take_of_length_le (l := b.toList.drop 32),
        List.take_append_drop]
      rw [List.length_drop, Bytes.length_toList]
    rw [← hn]
    show _ = leNat b.toList / _
    rw [hb, leNat_append, Bytes.length_toList, Nat.add_mul_div_left _ _ (by positivity), Nat.div_eq_of_lt, Nat.zero_add]
    · rfl
    · exact Bytes.toNat_lt _
  have h1 : nonZeroBaseFromBytes (b.slice 32 32 (by norm_num)) = some (n : Fp) := by
    unfold nonZeroBaseFromBytes
    rw [fp_fromRepr (by rw [hs]; exact hp), hs, Option.bind_some]
    unfold nonZeroFromBase
    rw [if_neg (fp_ne_zero h0 hp)]
  unfold IncomingViewingKey.fromBytes
  rw [h1]
  dsimp only
  rw [nonZeroScalarOfBase_nat h0 hp, Outcome.ret_bind]
  rfl

theorem noteEncryptionOk_sound {tv : NoteEncryptionVector} {w : NoteEncryptionWitness}
    (h : noteEncryptionOk tv w = true) (rk : VerificationKey .spendAuth) :
    noteEncryptionTest Prims.zcash rk tv = .ret () := by
  unfold noteEncryptionOk at h
  simp only [force_eq, Bool.and_eq_true] at h
  obtain ⟨i0, ip, rp, cp, e0, eq, gx, gy, px, py, vx, vy, ex, ey, sx, sy, bpk, bcv, bep, bss, bcm, hv, hg, mp, me, ms,
    p4, p9, p5, hno, hkdf, hock, hpt, hop, hce, hco⟩ := h
  have hivk := ivkFromBytes_nat (b := tv.incomingViewingKey) rfl (beq_false i0) (Nat.blt_eq.mp ip)
  replace rp : tv.nfOld.toNat < p := Nat.blt_eq.mp rp
  replace eq : tv.esk.toNat < q := Nat.blt_eq.mp eq
  have e0' := beq_false e0
  have bcm' : tv.cmx.toNat = w.cm.2.2.2.2.1 := Nat.eq_of_beq_eq_true bcm
  have cp' : tv.cmx.toNat < p := by
    rw [bcm']
    exact Nat.blt_eq.mp cp
  have rg := diversifyHash_sound (d := tv.defaultD) rfl hg
  have rpk := mulIs_sound rg (beq_false i0) mp
  have rep := mulIs_sound rg e0' me
  have rss := mulIs_sound rpk e0' ms
  have npk := rep_toNat rpk (Nat.blt_eq.mp px) (Nat.blt_eq.mp py)
  have nss := rep_toNat rss (Nat.blt_eq.mp sx) (Nat.blt_eq.mp sy)
  obtain ⟨V, rV⟩ := rep_exists hv
  have nV := rep_toNat rV (Nat.blt_eq.mp vx) (Nat.blt_eq.mp vy)
  have hpsi := Nat.eq_of_beq_eq_true p9
  have hrcm := Nat.eq_of_beq_eq_true p5
  have hesk := Nat.eq_of_beq_eq_true p4
  have psip : w.psi < p := by
    rw [← hpsi]
    exact Nat.mod_lt _ (by decide +kernel)
  have ngd := rep_toNat rg (Nat.blt_eq.mp gx) (Nat.blt_eq.mp gy)
  obtain ⟨C, hC, rC⟩ := noteOk_sound ngd npk rp psip hno
  have hxC := extractP_rep rC
  refine noteEncryptionTest_intro (pkd := ((tv.incomingViewingKey.toNat / 256 ^ 32 : ℕ) : Fq) •
      diversifyHash Prims.zcash tv.defaultD) (cv := V) (esk := (tv.esk.toNat : Fq)) (rho := (tv.nfOld.toNat : Fp))
    (cmx := (tv.cmx.toNat : Fp)) (psi := (w.psi : Fp)) (rcm := (w.rcm : Fq)) (cm := C) ?_ hivk ?_ (rep_ne_zero rpk) ?_
    (fp_fromRepr rp) (fp_fromRepr cp') ?_ ?_ ?_ ?_ ?_ rfl ?_ ?_ hC ?_ ?_ ?_ ?_ ?_ ?_ rk
  · rw [zcash_hashToCurve]
    exact Generators.gd_ne_zero
  · exact rep_toBytes rpk (Nat.blt_eq.mp px) (Nat.blt_eq.mp py) (Nat.eq_of_beq_eq_true bpk)
  · exact rep_toBytes rV (Nat.blt_eq.mp vx) (Nat.blt_eq.mp vy) (Nat.eq_of_beq_eq_true bcv)
  · unfold eskFromBytes nonZeroScalarFromBytes Fq.fromRepr
    rw [if_pos eq, Option.bind_some]
    unfold nonZeroFromScalar
    rw [if_neg (fq_ne_zero e0' eq)]
  · unfold RandomSeed.eskInner
    have he : toScalar (prfExpand Prims.zcash 0x04 tv.rseed (Fp.toRepr (tv.nfOld.toNat : Fp)).toList) =
        (tv.esk.toNat : Fq) := toScalar_nat (seed_nat rp) hesk
    rw [he]
    unfold nonZeroFromScalar
    rw [if_neg (fq_ne_zero e0' eq)]
  · exact rep_toBytes rss (Nat.blt_eq.mp sx) (Nat.blt_eq.mp sy) (Nat.eq_of_beq_eq_true bss)
  · apply Bytes.toNat_injective
    rw [kdf_nat nss]
    exact Nat.eq_of_beq_eq_true hkdf
  · apply Bytes.toNat_injective
    rw [ock_nat nV]
    exact Nat.eq_of_beq_eq_true hock
  · exact toBase_nat (seed_nat rp) hpsi
  · exact toScalar_nat (seed_nat rp) hrcm
  · rw [hxC, bcm']
  · exact rep_toBytes rep (Nat.blt_eq.mp ex) (Nat.blt_eq.mp ey) (Nat.eq_of_beq_eq_true bep)
  · exact plaintext_nat (Nat.eq_of_beq_eq_true hpt)
  · refine outgoing_nat npk ?_ (Nat.eq_of_beq_eq_true hop)
    rw [Fq.toNat_toRepr, ZMod.val_natCast_of_lt eq]
  · apply Bytes.toNat_injective
    rw [aeadEncrypt_nat 9 rfl rfl (by norm_num)]
    exact Nat.eq_of_beq_eq_true hce
  · apply Bytes.toNat_injective
    rw [aeadEncrypt_nat 1 rfl rfl (by norm_num)]
    exact Nat.eq_of_beq_eq_true hco

end Orchard.Vectors
