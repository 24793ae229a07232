import Verif.Model.Stream
import Verif.Props.Encodings
import Verif.Examples.Builder

/-!
# C108: keys in streams, and serialised Merkle hashes
-/

namespace Orchard

/-- What a reader delivers before it fails, and how it fails: at an error, or at the end of the stream.  Neither the pieces
in which the bytes arrive nor interruptions matter. -/
def Spec.delivered : Reader → List UInt8 × IoError
  | [] => ([], .unexpectedEof)
  | .interrupted :: r => Spec.delivered r
  | .error e :: _ => ([], e)
  | .bytes [] :: _ => ([], .unexpectedEof)
  | .bytes (b :: c) :: r => ((b :: c) ++ (Spec.delivered r).1, (Spec.delivered r).2)

theorem readExact_zero (r : Reader) : readExact r 0 = .ok ([], r) := by
  cases r with
  | nil => rfl
  | cons a r => cases a <;> rfl

theorem readExact_spec (r : Reader) : ∀ n : ℕ,
    (n ≤ (Spec.delivered r).1.length → ∃ r', readExact r n = .ok ((Spec.delivered r).1.take n, r') ∧
      Spec.delivered r' = ((Spec.delivered r).1.drop n, (Spec.delivered r).2)) ∧
    ((Spec.delivered r).1.length < n → readExact r n = .err (Spec.delivered r).2) := by
  have zero : ∀ r : Reader, (∃ r', readExact r 0 = .ok ((Spec.delivered r).1.take 0, r') ∧
      Spec.delivered r' = ((Spec.delivered r).1.drop 0, (Spec.delivered r).2)) :=
    fun r => ⟨r, readExact_zero r, rfl⟩
  induction r with
  | nil =>
    intro n
    cases n with
    | zero => exact ⟨fun _ => zero _, fun h => absurd h (by simp)⟩
    | succ n => exact ⟨fun h => absurd h (by simp [Spec.delivered]), fun _ => rfl⟩
  | cons a r ih =>
    intro n
    cases n with
    | zero => exact ⟨fun _ => zero _, fun h => absurd h (by simp)⟩
    | succ n =>
      cases a with
      | interrupted => exact ih (n + 1)
      | error e => exact ⟨fun h => absurd h (by simp [Spec.delivered]), fun _ => rfl⟩
      | bytes l =>
        cases l with
        | nil => exact ⟨fun h => absurd h (by simp [Spec.delivered]), fun _ => rfl⟩
        | cons b c =>
          have hd : Spec.delivered (.bytes (b :: c) :: r) =
            ((b :: c) ++ (Spec.delivered r).1, (Spec.delivered r).2) := rfl
          rw [hd]
          simp only [readExact]
          by_cases hn : n < c.length
          · rw [if_pos hn]
            refine ⟨fun _ => ⟨_, by rw [List.take_append_of_le_length (by simpa using hn.le)], ?_⟩, fun h => ?_⟩
            · rw [List.drop_append_of_le_length (by simpa using hn.le)]
              cases hx : (b :: c).drop (n + 1) with
              | nil =>
                have := congrArg List.length hx
                simp at this
                omega
              | cons b' c' => rfl
            · simp only [List.length_append, List.length_cons] at h
              omega
          · rw [if_neg hn]
            obtain ⟨h1, h2⟩ := ih (n - c.length)
            have e : n + 1 = (b :: c).length + (n - c.length) := by simp; omega
            constructor
            · intro h
              obtain ⟨r', e1, e2⟩ := h1 (by simp only [List.length_append, List.length_cons] at h; omega)
              refine ⟨r', ?_, ?_⟩
              · rw [e1, e, List.take_length_add_append]; rfl
              · rw [e, List.drop_length_add_append]; exact e2
            · intro h
              rw [h2 (by simp only [List.length_append, List.length_cons] at h; omega)]
              rfl

/-- **C108** (reading). From a reader that delivers fewer than 96 bytes nothing is read, and the error is that of the
reader.  Otherwise exactly 96 bytes are taken: they are the encoding of a valid key, which is returned, or the error is
`InvalidInput`.  Reading does not panic, and the pieces in which the bytes arrive do not matter. -/
theorem C108_read (P : Prims) (r : Reader) :
    ((Spec.delivered r).1.length < 96 → FullViewingKey.read P r = .err (Spec.delivered r).2) ∧
    (96 ≤ (Spec.delivered r).1.length →
      (∃ fvk r', Spec.ValidFvk P fvk.ak.point fvk.nk fvk.rivk ∧
        (Spec.delivered r).1 = fvk.toBytes.toList ++ (Spec.delivered r').1 ∧
        (Spec.delivered r').2 = (Spec.delivered r).2 ∧ FullViewingKey.read P r = .ok (fvk, r')) ∨
      ((∀ fvk : FullViewingKey, Spec.ValidFvk P fvk.ak.point fvk.nk fvk.rivk →
          ¬ fvk.toBytes.toList <+: (Spec.delivered r).1) ∧
        FullViewingKey.read P r = .err .invalidInput)) := by
  obtain ⟨h1, h2⟩ := readExact_spec r 96
  constructor
  · intro h
    unfold FullViewingKey.read
    rw [h2 h]; rfl
  · intro h
    obtain ⟨r', e1, e2⟩ := h1 h
    have hl : ((Spec.delivered r).1.take 96).length = 96 := by rw [List.length_take]; omega
    have hread : FullViewingKey.read P r =
        (Run.ofOutcome (FullViewingKey.fromBytes P ⟨(Spec.delivered r).1.take 96, hl⟩) >>= fun o =>
          match o with
          | some fvk => pure (fvk, r')
          | none => .err .invalidInput) := by
      unfold FullViewingKey.read
      rw [e1]
      simp only [Run.ok_bind, Bytes.ofList?]
      rw [dif_pos hl]
      rfl
    obtain ⟨hp, hiff⟩ := C31_fvk_encoding P ⟨(Spec.delivered r).1.take 96, hl⟩
    obtain ⟨o, ho⟩ := outcome_ret_of_ne_panic hp
    rw [hread, ho]
    cases o with
    | some fvk =>
      obtain ⟨h3, h4⟩ := (hiff fvk).1 ho
      refine Or.inl ⟨fvk, r', h4, ?_, ?_, rfl⟩
      · rw [e2, ← h3]; exact (List.take_append_drop 96 _).symm
      · rw [e2]
    | none =>
      refine Or.inr ⟨fun fvk hv hpre => ?_, rfl⟩
      have hb : (⟨(Spec.delivered r).1.take 96, hl⟩ : Bytes 96) = fvk.toBytes := by
        apply Bytes.ext
        obtain ⟨t, ht⟩ := hpre
        show (Spec.delivered r).1.take 96 = _
        rw [← ht, List.take_append_of_le_length (by simp), List.take_of_length_le (by simp)]
      have := (hiff fvk).2 ⟨hb, hv⟩
      rw [ho] at this
      simp at this

/-- **C108** (writing). The bytes written are a prefix of the encoding; all are written exactly if `Ok` is returned. -/
theorem C108_write (fvk : FullViewingKey) (w : Writer) :
    (fvk.write w).1 <+: fvk.toBytes.toList ∧
    ((∃ w', (fvk.write w).2 = .ok w') ↔ (fvk.write w).1 = fvk.toBytes.toList) := by
  unfold FullViewingKey.write
  generalize fvk.toBytes.toList = l
  induction w generalizing l with
  | nil => cases l <;> simp [writeAll]
  | cons a w ih =>
    cases l with
    | nil => simp [writeAll]
    | cons b c =>
      cases a with
      | interrupted => exact ih (b :: c)
      | error e => simp [writeAll]
      | accept n =>
        cases n with
        | zero => simp [writeAll]
        | succ n =>
          obtain ⟨h1, h2⟩ := ih ((b :: c).drop (n + 1))
          have e : (b :: c) = (b :: c).take (n + 1) ++ (b :: c).drop (n + 1) := (List.take_append_drop _ _).symm
          simp only [writeAll]
          constructor
          · conv_rhs => rw [e]
            exact (List.prefix_append_right_inj _).2 h1
          · rw [h2]
            conv_rhs => rhs; rw [e]
            exact List.append_cancel_left_eq _ _ _ |>.symm.to_iff

/-- **C108** (writing, errors). Writing fails only with an error of the writer, or with `WriteZero` if the writer takes no
byte of some. -/
theorem C108_write_error (fvk : FullViewingKey) (w : Writer) (e : IoError) (h : (fvk.write w).2 = .error e) :
    .error e ∈ w ∨ (e = .writeZero ∧ .accept 0 ∈ w) := by
  unfold FullViewingKey.write at h
  generalize fvk.toBytes.toList = l at h
  induction w generalizing l with
  | nil => cases l <;> simp [writeAll] at h
  | cons a w ih =>
    cases l with
    | nil => simp [writeAll] at h
    | cons b c =>
      cases a with
      | interrupted => simpa using ih (b :: c) h
      | error e' =>
        simp only [writeAll, Except.error.injEq] at h
        exact Or.inl (by simp [h])
      | accept n =>
        cases n with
        | zero =>
          simp only [writeAll, Except.error.injEq] at h
          exact Or.inr ⟨h.symm, by simp⟩
        | succ n => simpa using ih _ h

/-- **C108** (round trip). A valid key written to a writer that does not fail is read back, whatever follows it. -/
theorem C108_round_trip (P : Prims) (fvk : FullViewingKey) (hv : Spec.ValidFvk P fvk.ak.point fvk.nk fvk.rivk)
    (w w' : Writer) (hw : (fvk.write w).2 = .ok w') (r : Reader) (rest : List UInt8)
    (hr : (Spec.delivered r).1 = (fvk.write w).1 ++ rest) :
    ∃ r', FullViewingKey.read P r = .ok (fvk, r') ∧ (Spec.delivered r').1 = rest := by
  rw [(C108_write fvk w).2.1 ⟨w', hw⟩] at hr
  rcases (C108_read P r).2 (by rw [hr]; simp) with ⟨fvk', r', h1, h2, -, h3⟩ | ⟨h1, -⟩
  · rw [hr] at h2
    obtain ⟨e1, e2⟩ := List.append_inj h2 (by simp)
    have hb : fvk.toBytes = fvk'.toBytes := Bytes.ext e1
    have g := ((C31_fvk_encoding P fvk.toBytes).2 fvk).2 ⟨rfl, hv⟩
    have g' := ((C31_fvk_encoding P fvk.toBytes).2 fvk').2 ⟨hb, h1⟩
    rw [g, Outcome.ret.injEq, Option.some.injEq] at g'
    exact ⟨r', g' ▸ h3, e2.symm⟩
  · exact absurd ⟨rest, hr.symm⟩ (h1 fvk hv)

/-- Under `P0` a key that arrives in two pieces, with an interruption between them, is read back, and the byte that
follows it is left. -/
example : ∃ (fvk : FullViewingKey) (r' : Reader), FullViewingKey.read Examples.P0
    [.bytes (fvk.toBytes.toList.take 7), .interrupted, .bytes (fvk.toBytes.toList.drop 7 ++ [5])] = .ok (fvk, r') ∧
    (Spec.delivered r').1 = [5] := by
  obtain ⟨fvk, -, -, -, hv⟩ := Examples.fvk_P0 ⟨default⟩
  refine ⟨fvk, C108_round_trip _ fvk hv [] [] ?_ _ [5] ?_⟩
  · unfold FullViewingKey.write
    cases fvk.toBytes.toList <;> rfl
  · have hw : (fvk.write []).1 = fvk.toBytes.toList := by
      unfold FullViewingKey.write
      cases fvk.toBytes.toList <;> rfl
    have hl : fvk.toBytes.toList.length = 96 := by simp
    rw [hw]
    generalize fvk.toBytes.toList = l at hl
    have h1 : l.take 7 ≠ [] := by intro h; have := congrArg List.length h; simp [hl] at this
    have h2 : l.drop 7 ++ [5] ≠ [] := by simp
    have key : ∀ c : List UInt8, c ≠ [] → ∀ r, (Spec.delivered (.bytes c :: r)).1 = c ++ (Spec.delivered r).1 := by
      intro c hc r
      cases c with
      | nil => exact absurd rfl hc
      | cons => rfl
    rw [key _ h1]
    show _ ++ (Spec.delivered [.bytes (l.drop 7 ++ [5])]).1 = _
    rw [key _ h2]
    show l.take 7 ++ ((l.drop 7 ++ [5]) ++ []) = _
    rw [List.append_nil, ← List.append_assoc, List.take_append_drop]

/-- **C108** (Merkle hashes). In any format, deserialising gives a hash exactly if the format gives the canonical 32 bytes
of it; an error of the format is passed on, and 32 bytes that denote no element less than `p` are a custom error. -/
theorem C108_deserialize {Data E : Type} (F : SerdeFormat Data E) (d : Data) :
    (∀ a, merkleHashDeserialize F d = .ok a ↔ ∃ b, F.de d = .ok b ∧ leNat b.toList = a.val) ∧
    (∀ e, F.de d = .error e → merkleHashDeserialize F d = .error e) ∧
    (∀ b, F.de d = .ok b → p ≤ leNat b.toList → merkleHashDeserialize F d = .error F.custom) := by
  obtain ⟨h1, h2, -⟩ : Spec.CanonicalField p (fun x : Fp => x) merkleHashFromBytes merkleHashToBytes :=
    canonicalField_fp
  refine ⟨fun a => ?_, fun e he => ?_, fun b hb hp => ?_⟩
  · unfold merkleHashDeserialize
    cases F.de d with
    | error e => simp
    | ok b =>
      simp only [Except.ok.injEq, exists_eq_left']
      rw [← h1 b a]
      cases merkleHashFromBytes b <;> simp
  · unfold merkleHashDeserialize
    rw [he]
  · unfold merkleHashDeserialize
    rw [hb]
    simp only
    cases hx : merkleHashFromBytes b with
    | none => rfl
    | some a => exact absurd ((h2 b).1 ⟨a, hx⟩) (by omega)

/-- **C108** (Merkle hashes, round trip). In a format that reads back the arrays it writes, every hash is read back. -/
theorem C108_serialize {Data E : Type} (F : SerdeFormat Data E) (hF : ∀ b d, F.ser b = .ok d → F.de d = .ok b) (a : Fp)
    (d : Data) (h : merkleHashSerialize F a = .ok d) : merkleHashDeserialize F d = .ok a := by
  refine ((C108_deserialize F d).1 a).2 ⟨_, hF _ _ h, ?_⟩
  exact (canonicalField_fp.2.2.1 a)

/-- A format that writes the bytes one after another. -/
example : merkleHashDeserialize ⟨fun b => .ok b.toList, fun l => match Bytes.ofList? 32 l with
    | some b => .ok b
    | none => .error (), ()⟩ (Fp.toRepr 7).toList = .ok 7 := by
  refine C108_serialize (E := Unit) ⟨fun b => .ok b.toList, fun l => match Bytes.ofList? 32 l with
    | some b => .ok b
    | none => .error (), ()⟩ ?_ 7 _ rfl
  intro b d h
  simp only [Except.ok.injEq] at h
  subst h
  have : Bytes.ofList? 32 b.toList = some b := dif_pos b.length_toList
  simp only [this]

end Orchard
