import Verif.Model.Display
import Mathlib.Tactic.IntervalCases

/-!
# Property C107: what is printed
-/

namespace Orchard

open Display

theorem decimal_inj {m n : ℕ} (h : decimal m = decimal n) : m = n := by
  have := congrArg (fun l => Nat.ofDigitChars 10 l 0) h
  simpa only [decimal, Nat.ofDigitChars_ten_toDigits] using this

theorem decimal_isDigit {n : ℕ} {c : Char} (h : c ∈ decimal n) : c.isDigit = true :=
  Nat.isDigit_of_mem_toDigits (by norm_num) (by norm_num) h

/-- Digits followed by something else can be read back. -/
theorem decimal_append {m n : ℕ} {c c' : Char} {r r' : Text} (hc : c.isDigit = false) (hc' : c'.isDigit = false)
    (h : decimal m ++ c :: r = decimal n ++ c' :: r') : m = n ∧ c :: r = c' :: r' := by
  have key : ∀ (k : ℕ) (d : Char) (s : Text), d.isDigit = false →
      (decimal k ++ d :: s).takeWhile Char.isDigit = decimal k := by
    intro k d s hd
    rw [List.takeWhile_append_of_pos (fun a ha => decimal_isDigit ha), List.takeWhile_cons_of_neg (by simp [hd]),
      List.append_nil]
  have e := congrArg (List.takeWhile Char.isDigit) h
  rw [key _ _ _ hc, key _ _ _ hc'] at e
  rw [e] at h
  exact ⟨decimal_inj e, List.append_cancel_left h⟩

theorem debugBytesTail_head (l : List UInt8) (r : Text) :
    ∃ c s, debugBytesTail l ++ r = c :: s ∧ c.isDigit = false := by
  cases l with
  | nil => exact ⟨_, _, rfl, rfl⟩
  | cons b l => exact ⟨_, _, rfl, rfl⟩

theorem debugBytesTail_inj : ∀ (l l' : List UInt8) (r r' : Text), l.length = l'.length →
    debugBytesTail l ++ r = debugBytesTail l' ++ r' → l = l' ∧ r = r' := by
  intro l
  induction l with
  | nil =>
    intro l' r r' hl h
    rw [List.length_nil] at hl
    rw [List.length_eq_zero_iff.1 hl.symm] at h ⊢
    exact ⟨rfl, List.append_cancel_left h⟩
  | cons b l ih =>
    intro l' r r' hl h
    cases l' with
    | nil => simp at hl
    | cons b' l' =>
      rw [debugBytesTail, debugBytesTail, List.append_assoc, List.append_assoc, List.append_assoc, List.append_assoc] at h
      have h := List.append_cancel_left h
      obtain ⟨c, s, e, hc⟩ := debugBytesTail_head l r
      obtain ⟨c', s', e', hc'⟩ := debugBytesTail_head l' r'
      rw [e, e'] at h
      obtain ⟨h1, h2⟩ := decimal_append hc hc' h
      rw [← e, ← e'] at h2
      obtain ⟨h3, h4⟩ := ih l' r r' (by simpa using hl) h2
      exact ⟨by rw [UInt8.toNat_inj.1 h1, h3], h4⟩

theorem debugBytes_inj {l l' : List UInt8} {r r' : Text} (hl : l.length = l'.length)
    (h : debugBytes l ++ r = debugBytes l' ++ r') : l = l' ∧ r = r' := by
  cases l with
  | nil =>
    rw [List.length_nil] at hl
    rw [List.length_eq_zero_iff.1 hl.symm] at h ⊢
    exact ⟨rfl, List.append_cancel_left h⟩
  | cons b l =>
    cases l' with
    | nil => simp at hl
    | cons b' l' =>
      rw [debugBytes, debugBytes, List.append_assoc, List.append_assoc, List.append_assoc, List.append_assoc] at h
      have h := List.append_cancel_left h
      obtain ⟨c, s, e, hc⟩ := debugBytesTail_head l r
      obtain ⟨c', s', e', hc'⟩ := debugBytesTail_head l' r'
      rw [e, e'] at h
      obtain ⟨h1, h2⟩ := decimal_append hc hc' h
      rw [← e, ← e'] at h2
      obtain ⟨h3, h4⟩ := debugBytesTail_inj l l' r r' (by simpa using hl) h2
      exact ⟨by rw [UInt8.toNat_inj.1 h1, h3], h4⟩

theorem hexEncode_length (l : List UInt8) : (hexEncode l).length = 2 * l.length := by
  induction l with
  | nil => rfl
  | cons b l ih => rw [hexEncode, List.length_cons, List.length_cons, ih, List.length_cons]; omega

theorem hexDigit_inj : ∀ m < 16, ∀ n < 16, hexDigit m = hexDigit n → m = n := by decide

theorem hexEncode_inj : ∀ (l l' : List UInt8), hexEncode l = hexEncode l' → l = l' := by
  intro l
  induction l with
  | nil =>
    intro l' h
    cases l' with
    | nil => rfl
    | cons b l' => simp [hexEncode] at h
  | cons b l ih =>
    intro l' h
    cases l' with
    | nil => simp [hexEncode] at h
    | cons b' l' =>
      rw [hexEncode, hexEncode, List.cons.injEq, List.cons.injEq] at h
      have hb := b.toNat_lt
      have hb' := b'.toNat_lt
      have h1 := hexDigit_inj _ (by omega) _ (by omega) h.1
      have h2 := hexDigit_inj _ (by omega) _ (by omega) h.2.1
      rw [UInt8.toNat_inj.1 (show b.toNat = b'.toNat by omega), ih l' h.2.2]

theorem lit_close : lit "    ],\n" = [' ', ' ', ' ', ' ', ']', ',', '\n'] := by decide +kernel
theorem lit_open : lit "    [\n" = [' ', ' ', ' ', ' ', '[', '\n'] := by decide +kernel
theorem lit_empty : lit "    [],\n" = [' ', ' ', ' ', ' ', '[', ']', ',', '\n'] := by decide +kernel
theorem lit_indent : lit "        " = List.replicate 8 ' ' := by decide +kernel
theorem lit_comma : lit ",\n" = [',', '\n'] := by decide +kernel

/-- The first two characters of the text of an error. -/
def buildErrorTag : BuildError → List Char
  | .missingSignatures => ['R', 'e']
  | .proof _ => ['C', 'o']
  | .valueSum _ => ['O', 'v']
  | .invalidExternalSignature => ['E', 'x']
  | .duplicateSignature => ['S', 'i']
  | .bundleTypeNotSatisfiable => ['B', 'u']
  | .spendsDisabled => ['S', 'p']
  | .outputsDisabled => ['S', 'p']
  | .anchorMismatch => ['A', 'l']

theorem buildError_take (proofError : ProofError → Text) (e : BuildError) :
    (buildError proofError e).take 2 = buildErrorTag e := by
  cases e with
  | proof x =>
    rw [buildError, List.take_append_of_le_length (by decide +kernel), buildErrorTag]
    decide +kernel
  | _ => rw [buildError, buildErrorTag]; decide +kernel

/-- **C107** (building). Two errors of bundle construction print the same text exactly if they are equal, or come from
provers' errors that print the same text, or say that spends and that outputs are disabled. -/
theorem C107_build_error (proofError : ProofError → Text) (e e' : BuildError) :
    buildError proofError e = buildError proofError e' ↔ e = e' ∨
      (∃ x x', e = .proof x ∧ e' = .proof x' ∧ proofError x = proofError x') ∨
      (e = .spendsDisabled ∧ e' = .outputsDisabled) ∨ (e = .outputsDisabled ∧ e' = .spendsDisabled) := by
  constructor
  · intro h
    have ht : buildErrorTag e = buildErrorTag e' := by
      rw [← buildError_take proofError, ← buildError_take proofError, h]
    cases e with
    | proof x =>
      cases e' with
      | proof x' =>
        rw [buildError, buildError] at h
        exact Or.inr (Or.inl ⟨x, x', rfl, rfl, List.append_cancel_left h⟩)
      | _ => simp [buildErrorTag] at ht
    | valueSum x =>
      cases e' with
      | valueSum y => cases x; cases y; exact Or.inl rfl
      | _ => simp [buildErrorTag] at ht
    | _ => cases e' <;> first | (simp [buildErrorTag] at ht; done) | simp
  · rintro (h | ⟨y, y', h1, h2, h3⟩ | ⟨h1, h2⟩ | ⟨h1, h2⟩)
    · rw [h]
    · rw [h1, h2, buildError, buildError, h3]
    · rw [h1, h2, buildError, buildError]
    · rw [h1, h2, buildError, buildError]

/-- Errors that print different texts, and the case of two errors of the prover. -/
example : buildError (fun e => decimal e.code) .anchorMismatch ≠ buildError (fun e => decimal e.code) (.proof ⟨3⟩) := by
  rw [Ne, C107_build_error]
  simp

/-- **C107** (finding). The error that outputs are disabled prints that spends are. -/
theorem C107_outputs_disabled (proofError : ProofError → Text) :
    buildError proofError .outputsDisabled = lit "Spends are not enabled for the requested bundle type." ∧
    buildError proofError .outputsDisabled = buildError proofError .spendsDisabled := ⟨rfl, rfl⟩

/-- **C107** (adding spends). The errors of `add_spend` print different texts. -/
theorem C107_spend_error (e e' : SpendError) (h : spendError e = spendError e') : e = e' := by
  cases e <;> cases e' <;> first | rfl | (exact absurd h (by decide +kernel))

/-- **C107** (adding outputs, overflow). The error of `add_output` and that of value sums print texts of their own. -/
theorem C107_output_overflow_error (o : OutputError) (v : OverflowError) :
    (∀ e, outputError o ≠ spendError e) ∧ (∀ e, overflowError v ≠ spendError e) ∧ outputError o ≠ overflowError v ∧
    outputError o = lit "Outputs are not enabled for this builder" ∧
    overflowError v = lit "Orchard value operation overflowed" := by
  refine ⟨fun e => ?_, fun e => ?_, by unfold outputError overflowError; decide +kernel, rfl, rfl⟩
  · unfold outputError
    cases e <;> decide +kernel
  · unfold overflowError
    cases e <;> decide +kernel

/-- **C107** (finding). All errors of key derivation print the same text, which says that the key is invalid: that of an
invalid child index neither says so nor contains the index. -/
theorem C107_zip32_error (e e' : Zip32.Error) :
    zip32Error e = zip32Error e' ∧ zip32Error e = lit "Seed produced invalid spending key." := ⟨rfl, rfl⟩

/-- Errors that `C107_zip32_error` is about. -/
example : Zip32.Error.invalidSpendingKey ≠ Zip32.Error.invalidChildIndex 5 := by decide

/-- **C107** (proofs). Without the flag `#` a proof prints its length and nothing else. -/
theorem C107_proof (proof proof' : List UInt8) :
    debugProof false proof = debugProof false proof' ↔ proof.length = proof'.length := by
  constructor
  · intro h
    have h : lit "Proof(" ++ decimal proof.length ++ lit " bytes)" =
      lit "Proof(" ++ decimal proof'.length ++ lit " bytes)" := h
    exact decimal_inj (List.append_cancel_left (List.append_cancel_right h))
  · intro h
    show lit "Proof(" ++ decimal proof.length ++ lit " bytes)" =
      lit "Proof(" ++ decimal proof'.length ++ lit " bytes)"
    rw [h]

/-- Two proofs with 4992 bytes print the same. -/
example : debugProof false (List.replicate 4992 1) = debugProof false (List.replicate 4992 2) :=
  (C107_proof _ _).2 (by rw [List.length_replicate, List.length_replicate])

theorem debugBytesLines_inj : ∀ (l l' : List UInt8) (r : Text),
    debugBytesLines l ++ (lit "    ],\n" ++ r) = debugBytesLines l' ++ (lit "    ],\n" ++ r) → l = l' := by
  intro l
  induction l with
  | nil =>
    intro l' r h
    cases l' with
    | nil => rfl
    | cons b l' =>
      have h5 := congrArg (fun t => t[4]?) h
      simp [debugBytesLines, lit_close, lit_indent] at h5
  | cons b l ih =>
    intro l' r h
    cases l' with
    | nil =>
      have h5 := congrArg (fun t => t[4]?) h
      simp [debugBytesLines, lit_close, lit_indent] at h5
    | cons b' l' =>
      rw [debugBytesLines, debugBytesLines] at h
      simp only [List.append_assoc] at h
      have h := List.append_cancel_left h
      rw [lit_comma] at h
      obtain ⟨h1, h2⟩ := decimal_append (c := ',') (c' := ',') rfl rfl h
      have h3 := ih l' r (List.append_cancel_left (as := [',', '\n']) h2)
      rw [UInt8.toNat_inj.1 h1, h3]

/-- **C107** (proofs). With the flag `#` a proof prints all its bytes. -/
theorem C107_proof_alternate (proof proof' : List UInt8) (h : debugProof true proof = debugProof true proof') :
    proof = proof' := by
  unfold debugProof at h
  rw [if_pos rfl, if_pos rfl] at h
  simp only [List.append_assoc] at h
  have h := List.append_cancel_left h
  by_cases h1 : proof = []
  · by_cases h2 : proof' = []
    · rw [h1, h2]
    · rw [if_pos h1, if_neg h2] at h
      have h5 := congrArg (fun t => t[5]?) h
      simp [lit_open, lit_empty] at h5
  · by_cases h2 : proof' = []
    · rw [if_neg h1, if_pos h2] at h
      have h5 := congrArg (fun t => t[5]?) h
      simp [lit_open, lit_empty] at h5
    · rw [if_neg h1, if_neg h2] at h
      simp only [List.append_assoc] at h
      exact debugBytesLines_inj _ _ _ (List.append_cancel_left h)

theorem hexDigits_byte : ∀ n < 256,
    [hexDigit (n / 16), hexDigit (n % 16)] = List.leftpad 2 '0' (Nat.toDigits 16 n) := by decide +kernel

/-- **C107** (hexadecimal). Every byte is printed to base 16 with two digits. -/
theorem C107_hex (l : List UInt8) :
    hexEncode l = l.flatMap fun b => List.leftpad 2 '0' (Nat.toDigits 16 b.toNat) := by
  induction l with
  | nil => rfl
  | cons b l ih =>
    rw [hexEncode, ih, List.flatMap_cons, ← hexDigits_byte b.toNat b.toNat_lt]
    rfl

/-- **C107** (ciphertexts). A transmitted ciphertext prints all its bytes. -/
theorem C107_ciphertext (c c' : TransmittedNoteCiphertext) (h : debugCiphertext c = debugCiphertext c') : c = c' := by
  obtain ⟨⟨a, ha⟩, ⟨b, hb⟩, ⟨d, hd⟩⟩ := c
  obtain ⟨⟨a', ha'⟩, ⟨b', hb'⟩, ⟨d', hd'⟩⟩ := c'
  unfold debugCiphertext at h
  simp only [List.append_assoc] at h
  have h := List.append_cancel_left h
  obtain ⟨h1, h⟩ := debugBytes_inj (ha.trans ha'.symm) h
  have h := List.append_cancel_left h
  obtain ⟨h2, h⟩ := List.append_inj h (by rw [hexEncode_length, hexEncode_length, hb, hb'])
  have h := List.append_cancel_left h
  obtain ⟨h3, -⟩ := List.append_inj h (by rw [hexEncode_length, hexEncode_length, hd, hd'])
  have h2 := hexEncode_inj _ _ h2
  have h3 := hexEncode_inj _ _ h3
  subst h1 h2 h3
  rfl

/-- **C107** (compact actions). A compact action prints nothing of its contents. -/
theorem C107_compact_action (c c' : CompactAction) : debugCompactAction c = debugCompactAction c' := rfl

/-- The texts occur in `t` in the given order, without overlap. -/
def Spec.InOrder (t : Text) : List Text → Prop
  | [] => True
  | x :: l => ∃ u v, t = u ++ x ++ v ∧ Spec.InOrder v l

theorem inOrder_cons_left {t : Text} (c : Text) {l : List Text} (h : Spec.InOrder t l) : Spec.InOrder (c ++ t) l := by
  cases l with
  | nil => trivial
  | cons x l =>
    obtain ⟨u, v, rfl, h⟩ := h
    exact ⟨c ++ u, v, by simp, h⟩

theorem inOrder_here {t x : Text} {l : List Text} (h : Spec.InOrder t l) : Spec.InOrder (x ++ t) (x :: l) :=
  ⟨[], t, rfl, h⟩

theorem inOrder_intersperse (sep : Text) {t : Text} {l' : List Text} (h : Spec.InOrder t l') : ∀ l : List Text,
    Spec.InOrder ((l.intersperse sep).flatten ++ t) (l ++ l')
  | [] => h
  | [x] => by
    simpa using inOrder_here (x := x) h
  | x :: y :: l => by
    have := inOrder_intersperse sep h (y :: l)
    rw [List.intersperse_cons_cons, List.flatten_cons, List.flatten_cons, List.append_assoc, List.append_assoc]
    exact inOrder_here (inOrder_cons_left sep this)

/-- **C107** (bundles). A bundle prints all its actions in order, the flags, the value balance, the anchor and the
authorisation, each as it prints itself. -/
theorem C107_bundle {T A V : Type} (action : Action A → Text) (flags : Flags → Text) (balance : V → Text)
    (anchor : Fp → Text) (authorization : T → Text) (b : Bundle T A V) :
    Spec.InOrder (debugBundle action flags balance anchor authorization b)
      (b.actions.map action ++
        [flags b.flags, balance b.valueBalance, anchor b.anchor, authorization b.authorization]) := by
  unfold debugBundle debugList
  simp only [List.append_assoc]
  refine inOrder_cons_left _ (inOrder_cons_left _ (inOrder_intersperse _ ?_ _))
  refine inOrder_cons_left _ (inOrder_cons_left _ (inOrder_here ?_))
  refine inOrder_cons_left _ (inOrder_here ?_)
  refine inOrder_cons_left _ (inOrder_here ?_)
  exact inOrder_cons_left _ (inOrder_here trivial)

/-- A list of three entries. -/
example : debugList [lit "a", lit "b", lit "c"] = lit "[a, b, c]" := by decide +kernel

/-- What is printed, in concrete cases. -/
example : debugProof false [7, 8, 255] = lit "Proof(3 bytes)" ∧
    debugProof true [7, 255] = lit "Proof(\n    [\n        7,\n        255,\n    ],\n)" ∧
    debugBytes [7, 0, 255] = lit "[7, 0, 255]" ∧ hexEncode [7, 0xab] = lit "07ab" := by decide +kernel

end Orchard
