import Verif.Model.BatchDecryption
import Verif.Props.Bundle

/-!
# C67: batched trial decryption
-/

namespace Orchard

open Bundle

/-- The first key that decrypts an output, in order, with what it gives. -/
def Spec.FirstHit {K X : Type} (ks : List K) (single : K → Outcome (Option X)) :
    Option (X × ℕ) → Prop
  | some (x, j) => ∃ k, ks[j]? = some k ∧ single k = .ret (some x) ∧
      ∀ j' k', j' < j → ks[j']? = some k' → single k' = .ret none
  | none => ∀ k ∈ ks, single k = .ret none

theorem chunksOf_flatMap {α β : Type} (n : ℕ) (hn : 0 < n) (f : β → List α) (l : List β)
    (hf : ∀ b ∈ l, (f b).length = n) (fuel : ℕ) (hfuel : l.length ≤ fuel) :
    chunksOf n fuel (l.flatMap f) = l.map f := by
  induction l generalizing fuel with
  | nil => cases fuel <;> simp [chunksOf]
  | cons b l ih =>
    cases fuel with
    | zero => simp at hfuel
    | succ fuel =>
      have hb := hf b (by simp)
      have hne : ∃ a t, f b = a :: t := by
        cases h : f b with
        | nil => rw [h] at hb; simp at hb; omega
        | cons a t => exact ⟨a, t, rfl⟩
      have e : chunksOf n (fuel + 1) (f b ++ l.flatMap f) =
          (f b ++ l.flatMap f).take n :: chunksOf n fuel ((f b ++ l.flatMap f).drop n) := by
        obtain ⟨a, t, h⟩ := hne
        rw [h]; rfl
      rw [List.flatMap_cons, e, List.map_cons]
      have h1 : (f b ++ l.flatMap f).take n = f b := by
        rw [← hb]; simp
      have h2 : (f b ++ l.flatMap f).drop n = l.flatMap f := by
        rw [← hb]; simp
      rw [h1, h2, ih (fun b hb => hf b (by simp [hb])) fuel (by simpa using hfuel)]

theorem findMapO_firstHit {K X : Type} (single : K → Outcome (Option X))
    (hs : ∀ k, single k ≠ .panic) (ks : List K) (s : ℕ) :
    ∃ r : Option (X × ℕ), findMapO (fun (y : K × ℕ) => do
        let r ← single y.1
        pure (r.map fun out => (out, y.2))) (ks.zipIdx s) = .ret (r.map fun x => (x.1, s + x.2)) ∧
      Spec.FirstHit ks single r := by
  induction ks generalizing s with
  | nil => exact ⟨none, rfl, by simp [Spec.FirstHit]⟩
  | cons k ks ih =>
    rw [List.zipIdx_cons, findMapO]
    cases hk : single k with
    | panic => exact absurd hk (hs k)
    | ret o =>
      cases o with
      | some x =>
        refine ⟨some (x, 0), by simp [hk], k, rfl, hk, ?_⟩
        intro j' k' hj; omega
      | none =>
        obtain ⟨r, h1, h2⟩ := ih (s + 1)
        refine ⟨r.map fun x => (x.1, x.2 + 1), ?_, ?_⟩
        · rw [Outcome.ret_bind, Option.map_none, Outcome.pure_eq, Outcome.ret_bind]
          refine h1.trans ?_
          cases r with
          | none => rfl
          | some x => simp; omega
        · cases r with
          | none =>
            intro k' hk'
            rcases List.mem_cons.1 hk' with rfl | hk'
            · exact hk
            · exact h2 k' hk'
          | some x =>
            obtain ⟨k', g1, g2, g3⟩ := h2
            refine ⟨k', by simpa using g1, g2, ?_⟩
            intro j' k'' hj hk''
            cases j' with
            | zero =>
              simp only [List.getElem?_cons_zero, Option.some.injEq] at hk''
              rw [← hk'']; exact hk
            | succ j' =>
              exact g3 j' k'' (by omega) (by simpa using hk'')

/-- The batch driver for a decryption function `single` that is `decryptInner` applied to the key
derived for the output. -/
theorem batch_spec {Out X : Type} (P : Prims) (ephemeralKey : Out → Bytes 32)
    (decryptInner : Fq → Bytes 32 → Out → Bytes 32 → Outcome (Option X))
    (single : Fq → Out → Outcome (Option X))
    (hsingle : ∀ ivk o, single ivk o = match epkFromBytes (ephemeralKey o) with
      | none => .ret none
      | some epk => decryptInner ivk (ephemeralKey o) o
          (kdfOrchard P (epkAgreePrepared epk ivk) (ephemeralKey o)))
    (hs : ∀ ivk o, single ivk o ≠ .panic) (ivks : List Fq) (outputs : List Out) :
    ∃ r, batchNoteDecryption P ephemeralKey decryptInner ivks outputs = .ret r ∧
      List.Forall₂ (fun o x => Spec.FirstHit ivks (fun k => single k o) x) outputs r := by
  unfold batchNoteDecryption
  by_cases h0 : ivks = []
  · subst h0
    refine ⟨_, rfl, ?_⟩
    rw [List.forall₂_map_right_iff, List.forall₂_same]
    intro o _ k hk; simp at hk
  have hne : ivks.isEmpty = false := by cases ivks <;> simp at h0 ⊢
  have hlen : 0 < ivks.length := List.length_pos_iff.2 h0
  rw [hne]
  simp only [Bool.false_eq_true, if_false]
  rw [C37_batch_kdf]
  have hk : (((outputs.map fun o => (epkFromBytes (ephemeralKey o), ephemeralKey o)).flatMap fun e =>
      ivks.map fun ivk => (e.1.map fun epk => epkAgreePrepared epk ivk, e.2)).map fun it =>
        it.1.map fun s => kdfOrchard P s it.2) =
      outputs.flatMap fun o => ivks.map fun ivk => (epkFromBytes (ephemeralKey o)).map fun epk =>
        kdfOrchard P (epkAgreePrepared epk ivk) (ephemeralKey o) := by
    rw [List.map_flatMap, List.flatMap_map]
    congr 1; funext o
    rw [List.map_map]
    congr 1; funext ivk
    simp only [Function.comp, Option.map_map]
    rfl
  rw [hk, chunksOf_flatMap ivks.length hlen _ outputs (by simp) _ (by
    rw [List.length_flatMap]
    simp only [List.length_map, List.map_const', List.sum_replicate, smul_eq_mul]
    exact Nat.le_mul_of_pos_right _ hlen)]
  clear hk
  induction outputs with
  | nil => exact ⟨[], rfl, .nil⟩
  | cons o outputs ih =>
    obtain ⟨r, h1, h2⟩ := ih
    obtain ⟨x, h3, h4⟩ := findMapO_firstHit (fun k => single k o) (fun k => hs k o) ivks 0
    refine ⟨x :: r, ?_, .cons h4 h2⟩
    rw [List.map_cons, List.map_cons, List.zip_cons_cons, List.zip_cons_cons, List.mapM_cons, h1]
    have : ∀ (l : List Fq) (s : ℕ), findMapO (fun (y : Option (Bytes 32) × (Fq × ℕ)) =>
        match y.1 with
        | none => pure none
        | some key => do
          let r ← decryptInner y.2.1 (ephemeralKey o) o key
          pure (r.map fun out => (out, y.2.2))) ((l.map fun ivk => (epkFromBytes (ephemeralKey o)).map
            fun epk => kdfOrchard P (epkAgreePrepared epk ivk) (ephemeralKey o)).zip (l.zipIdx s)) =
        findMapO (fun (y : Fq × ℕ) => do
          let r ← single y.1 o
          pure (r.map fun out => (out, y.2))) (l.zipIdx s) := by
      intro l
      induction l with
      | nil => intro s; rfl
      | cons k l ih =>
        intro s
        rw [List.map_cons, List.zipIdx_cons, List.zip_cons_cons, findMapO, findMapO, ih, hsingle]
        cases epkFromBytes (ephemeralKey o) with
        | none => rfl
        | some epk => rfl
    refine (congrArg₂ (fun (u : Outcome (Option (X × ℕ))) (w : Outcome (List (Option (X × ℕ)))) =>
      u >>= fun a => w >>= fun b => pure (a :: b)) ((this ivks 0).trans h3) rfl).trans ?_
    rw [Outcome.ret_bind, Outcome.ret_bind, Outcome.pure_eq]
    cases x <;> simp

/-- **C67** (actions). Batched trial decryption never panics and reports for each action, in order, what
the first decrypting key gives when tried alone, together with the index of that key; or nothing if no
key decrypts the action alone. -/
theorem C67_batch_decryption {T : Type} (P : Prims) (ivks : List Fq) (actions : List (Action T)) :
    ∃ r, batchTryNoteDecryption P ivks actions = .ret r ∧
      List.Forall₂ (fun a x => Spec.FirstHit ivks (fun ivk => tryNoteDecryption P ivk a) x)
        actions r :=
  batch_spec P _ _ (fun ivk a => tryNoteDecryption P ivk a)
    (by
      intro ivk a
      unfold tryNoteDecryption tryNoteDecryptionInner
      simp only
      cases epkFromBytes a.encryptedNote.epkBytes <;> rfl)
    (fun ivk a => (C44_decryption P ivk a).1) ivks actions

/-- **C67** (compact actions). The same for compact actions. -/
theorem C67_batch_compact_decryption (P : Prims) (ivks : List Fq) (actions : List CompactAction) :
    ∃ r, batchTryCompactNoteDecryption P ivks actions = .ret r ∧
      List.Forall₂ (fun c x => Spec.FirstHit ivks (fun ivk => tryCompactNoteDecryption P ivk c) x)
        actions r :=
  batch_spec P _ _ (fun ivk c => tryCompactNoteDecryption P ivk c)
    (by
      intro ivk c
      unfold tryCompactNoteDecryption tryCompactNoteDecryptionInner
      cases epkFromBytes c.ephemeralKey <;> rfl)
    (fun ivk c => (C44_compact_decryption P ivk c).1) ivks actions

/-- **C67** (bundles). On the actions of a bundle, batched decryption and `decrypt_outputs_with_keys`
report the same keys and notes. -/
theorem C67_agrees_with_scan {T A V : Type} (P : Prims) (b : Bundle T A V)
    (keys : List IncomingViewingKey) :
    ∃ r s, batchTryNoteDecryption P (keys.map IncomingViewingKey.ivk) b.actions = .ret r ∧
      b.decryptOutputsWithKeys P keys = .ret s ∧
      ∀ i k x, (i, k, x) ∈ s ↔ ∃ j, r[i]? = some (some (x, j)) ∧ keys[j]? = some k := by
  obtain ⟨r, h1, h2⟩ := C67_batch_decryption P (keys.map IncomingViewingKey.ivk) b.actions
  obtain ⟨s, h3, -, h4⟩ := C25_decrypt P b keys
  refine ⟨r, s, h1, h3, fun i k x => ?_⟩
  rw [h4]
  constructor
  · rintro ⟨a, j, ha, hk, hd, hmin⟩
    obtain ⟨hi, ha'⟩ := List.getElem?_eq_some_iff.1 ha
    have hi' : i < r.length := by rw [← h2.length_eq]; exact hi
    have hh := h2.get hi hi'
    simp only [List.get_eq_getElem, ha'] at hh
    have hkey : (keys.map IncomingViewingKey.ivk)[j]? = some k.ivk := by
      rw [List.getElem?_map, hk]; rfl
    cases hr : r[i] with
    | none =>
      rw [hr] at hh
      have := hh k.ivk (List.mem_of_getElem? hkey)
      beta_reduce at this
      rw [hd] at this; simp at this
    | some y =>
      obtain ⟨y, j'⟩ := y
      rw [hr] at hh
      obtain ⟨k', g1, g2, g3⟩ := hh
      beta_reduce at g2 g3
      have hj : j' = j := by
        rcases lt_trichotomy j j' with h | h | h
        · have := g3 j k.ivk h hkey
          rw [hd] at this; simp at this
        · exact h.symm
        · rw [List.getElem?_map, Option.map_eq_some_iff] at g1
          obtain ⟨kk, g1, rfl⟩ := g1
          have := hmin j' kk h g1
          rw [g2] at this; simp at this
      subst hj
      rw [hkey, Option.some.injEq] at g1
      subst g1
      rw [hd] at g2
      simp only [Outcome.ret.injEq, Option.some.injEq] at g2
      subst g2
      exact ⟨j', by rw [List.getElem?_eq_getElem hi', hr], hk⟩
  · rintro ⟨j, hr, hk⟩
    obtain ⟨hi', hr'⟩ := List.getElem?_eq_some_iff.1 hr
    have hi : i < b.actions.length := by rw [h2.length_eq]; exact hi'
    have hh := h2.get hi hi'
    simp only [List.get_eq_getElem, hr'] at hh
    obtain ⟨k', g1, g2, g3⟩ := hh
    rw [List.getElem?_map, hk, Option.map_some, Option.some.injEq] at g1
    subst g1
    refine ⟨_, j, List.getElem?_eq_getElem hi, hk, g2, fun j' k' hj hk' => ?_⟩
    exact g3 j' k'.ivk hj (by rw [List.getElem?_map, hk']; rfl)

/-- Under `P0`: an action sent to key 3 in a batch of two keys is found at the index of key 3, with its
note of value 5. -/
example : ∃ (a : Action Unit) (x : Note × Address × Bytes 512), x.1.value.inner = 5 ∧
    batchTryNoteDecryption Examples.P0 [3, 9] [a] = .ret [some (x, 0)] := by
  obtain ⟨note, cm, hv, hpk, he, hcm⟩ : ∃ (note : Note) (cm : Point), note.value.inner = 5 ∧
      note.recipient.pkd = (3 : Fq) • diversifyHash Examples.P0 note.recipient.d ∧
      Spec.esk Examples.P0 note.rseed note.rho ≠ 0 ∧
      Spec.noteCommitOf Examples.P0 note.recipient.d note.recipient.pkd note.value.inner.toNat note.rho
        note.rseed = some cm := by
    obtain ⟨cm, -, h⟩ := Examples.noteCommit_P0
    refine ⟨⟨⟨default, (3 : Fq) • diversifyHash Examples.P0 default⟩, ⟨5⟩, 7, default⟩, cm, rfl, rfl, ?_,
      h _ _ _ _ _⟩
    rw [Examples.esk_P0]; exact one_ne_zero
  obtain ⟨enc, -, h2⟩ := C42_recipient_decrypts (T := Unit) Examples.P0 genG_ne_zero 3 note
    default none default default hpk he cm hcm ⟨0⟩
  obtain ⟨a, h3⟩ : ∃ a : Action Unit, tryNoteDecryption Examples.P0 3 a =
      .ret (some (note, note.recipient, default)) :=
    ⟨⟨note.rho, ⟨0⟩, extractP cm, enc, ⟨0⟩, ()⟩, (h2 _ rfl rfl rfl).1⟩
  obtain ⟨r, h4, h5⟩ := C67_batch_decryption Examples.P0 [3, 9] [a]
  cases h5 with
  | @cons _ r _ _ hr ht =>
  cases ht
  beta_reduce at hr
  cases r with
  | none =>
    have := hr 3 List.mem_cons_self
    cases h3.symm.trans this
  | some y =>
    obtain ⟨y, j⟩ := y
    obtain ⟨k, g1, g2, g3⟩ := hr
    have hj : j = 0 := by
      by_contra hj
      have := g3 0 3 (by omega) rfl
      cases h3.symm.trans this
    subst hj
    rw [List.getElem?_cons_zero, Option.some.injEq] at g1
    subst g1
    replace g2 := h3.symm.trans g2
    rw [Outcome.ret.injEq, Option.some.injEq] at g2
    subst g2
    exact ⟨_, _, hv, h4⟩

end Orchard
