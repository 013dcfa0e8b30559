/-
What happens to the value of a tag that is put on a line without escaping it.
-/
import Verif.Spec.Arrives
import Verif.Proofs.CommandLine
import Verif.Proofs.Escape
import Verif.Proofs.Strings
import Verif.Proofs.Rebuild

namespace Tmi.Proofs
open Model Spec

theorem unesc_length_le : ∀ cs : List Char, (unesc cs).length ≤ cs.length
  | [] => Nat.le_refl _
  | [c] => by
    by_cases h1 : c = '\\'
    · subst h1; decide
    · by_cases h2 : c = '⸝'
      · subst h2; decide
      · simp [unesc, h1, h2]
  | c :: d :: r => by
    have h1 := unesc_length_le r
    have h2 := unesc_length_le (d :: r)
    rw [unesc]
    split
    · simp; omega
    · split <;> simp at h2 ⊢ <;> omega

/-- Unescaping leaves exactly the texts as they are in which nothing stands for something else. -/
theorem unesc_eq_iff : ∀ cs : List Char, unesc cs = cs ↔ '\\' ∉ cs ∧ '⸝' ∉ cs
  | [] => by simp [unesc]
  | c :: r => by
    have ih := unesc_eq_iff r
    by_cases h1 : c = '\\'
    · subst h1
      refine iff_of_false (fun h => ?_) (by simp)
      have hl := congrArg List.length h
      rw [unesc.eq_def] at hl
      simp only [if_true] at hl
      cases r with
      | nil => simp at hl
      | cons d r' =>
        have := unesc_length_le r'
        simp at hl
        omega
    · by_cases h2 : c = '⸝'
      · subst h2
        refine iff_of_false (fun h => ?_) (by simp)
        rw [unesc.eq_def] at h
        simp only [h1, if_true, if_false] at h
        exact absurd (List.cons.inj h).1 (by decide)
      · rw [unesc.eq_def]
        simp only [h1, h2, if_false]
        rw [List.cons.injEq, ih]
        simp [Ne.symm h1, Ne.symm h2]

/-- The value of the first tag, when the tag section goes on with `x`: what was put there, up to the first `;` or space. -/
theorem first_tag {k r rest : Bytes} {x : UInt8} (hx : x = SEMI ∨ x = SP) (hk : EQS ∉ k) (hks : SP ∉ k) {l : Line}
    (hl : line (AT :: (k ++ EQS :: (r ++ x :: rest))) = some l) {v : Bytes} (hv : l.tag k = some v) :
    (v = r ∧ SEMI ∉ r ∧ SP ∉ r) ∨ ∃ y q, (y = SEMI ∨ y = SP) ∧ r = v ++ y :: q := by
  -- the value up to the first `;`
  have upto : ∀ u : Bytes, lookup k (splitTags (k ++ EQS :: u)) = some v →
      (SEMI ∉ u ∧ v = u) ∨ ∃ q, SEMI ∉ v ∧ u = v ++ SEMI :: q := by
    intro u h
    cases hc : cut SEMI u with
    | none =>
      have hs := cut_eq_none hc
      rw [splitTags_last hk hs, lookup, if_pos rfl] at h
      exact .inl ⟨hs, (Option.some.inj h).symm⟩
    | some ab =>
      obtain ⟨a, b⟩ := ab
      obtain ⟨rfl, ha⟩ := cut_eq_some hc
      rw [splitTags_cons hk ha, lookup, if_pos rfl] at h
      have := Option.some.inj h
      subst this
      exact .inr ⟨b, ha, rfl⟩
  have htags : l.tags = tagPairs (AT :: (k ++ EQS :: (r ++ x :: rest))) := by
    unfold line at hl
    simp only [] at hl
    split at hl
    · simp at hl
    · rw [← Option.some.inj hl]; rfl
  unfold Line.tag at hv
  rw [htags] at hv
  unfold tagPairs at hv
  cases hc : cut SP r with
  | some ab =>
    obtain ⟨a, b⟩ := ab
    obtain ⟨rfl, ha⟩ := cut_eq_some hc
    rw [show AT :: (k ++ EQS :: (a ++ SP :: b ++ x :: rest)) = AT :: ((k ++ EQS :: a) ++ SP :: (b ++ x :: rest)) by simp,
      takeTags_space _ (by simp [hks, ha, show SP ≠ EQS by decide])] at hv
    rcases upto a hv with ⟨-, rfl⟩ | ⟨q, -, rfl⟩
    · exact .inr ⟨SP, b, .inr rfl, rfl⟩
    · exact .inr ⟨SEMI, q ++ SP :: b, .inl rfl, by simp⟩
  | none =>
    have hr := cut_eq_none hc
    rcases hx with rfl | rfl
    · cases hc' : cut SP rest with
      | none =>
        have hrest := cut_eq_none hc'
        rw [takeTags_no_space (by simp [hks, hr, hrest, show SP ≠ EQS by decide, show SP ≠ SEMI by decide])] at hv
        cases hv
      | some ab =>
        obtain ⟨a, b⟩ := ab
        obtain ⟨rfl, ha⟩ := cut_eq_some hc'
        rw [show AT :: (k ++ EQS :: (r ++ SEMI :: (a ++ SP :: b))) = AT :: ((k ++ EQS :: (r ++ SEMI :: a)) ++ SP :: b) by simp,
          takeTags_space _ (by simp [hks, hr, ha, show SP ≠ EQS by decide, show SP ≠ SEMI by decide])] at hv
        rcases upto _ hv with ⟨h, -⟩ | ⟨q, hq, h⟩
        · exact absurd (by simp) h
        · cases hc2 : cut SEMI r with
          | none =>
            exact .inl ⟨(cut_unique (cut_eq_none hc2) hq h).1.symm, cut_eq_none hc2, hr⟩
          | some ab =>
            obtain ⟨c, d⟩ := ab
            obtain ⟨rfl, hc3⟩ := cut_eq_some hc2
            rw [List.append_assoc, List.cons_append] at h
            obtain ⟨rfl, -⟩ := cut_unique hc3 hq h
            exact .inr ⟨SEMI, d, .inl rfl, rfl⟩
    · rw [show AT :: (k ++ EQS :: (r ++ SP :: rest)) = AT :: ((k ++ EQS :: r) ++ SP :: rest) by simp,
        takeTags_space _ (by simp [hks, hr, show SP ≠ EQS by decide])] at hv
      rcases upto r hv with ⟨h, rfl⟩ | ⟨q, -, rfl⟩
      · exact .inl ⟨rfl, h, hr⟩
      · exact .inr ⟨SEMI, q, .inl rfl, rfl⟩

/-- What is read in the first tag is what was put there only if nothing in it had to be escaped. -/
theorem first_tag_literally {k rest : Bytes} {t : List Char} {x : UInt8} (hx : x = SEMI ∨ x = SP) (hk : EQS ∉ k) (hks : SP ∉ k)
    (h : ReadsTag (AT :: (k ++ EQS :: (enc t ++ x :: rest))) k t) : ∀ c ∈ t, Literally c := by
  obtain ⟨l, cs, hl, hv, hu⟩ := h
  have ht : cs = t ∧ SEMI ∉ enc t ∧ SP ∉ enc t := by
    rcases first_tag hx hk hks hl hv with ⟨h, h'⟩ | ⟨y, q, hy, h⟩
    · exact ⟨enc_injective h, h'⟩
    · exfalso
      have hy' : y < 0x80 := by rcases hy with rfl | rfl <;> decide
      have hq : Utf8 q := Utf8.right hy' (h ▸ Utf8.of_enc t)
      obtain ⟨d, rfl⟩ := hq
      have e : y :: enc d = enc (Char.ofNat y.toNat :: d) := by
        rw [enc_cons, enc_ascii y hy']; rfl
      change enc t = enc cs ++ y :: enc d at h
      rw [e, ← enc_append] at h
      have := enc_injective h
      have h2 := unesc_length_le cs
      rw [hu, this] at h2
      simp at h2
      omega
  obtain ⟨rfl, h1, h2⟩ := ht
  obtain ⟨h3, h4⟩ := (unesc_eq_iff cs).1 hu
  rw [ascii_mem_enc (by decide)] at h1 h2
  exact fun c hc => ⟨fun e => h1 (e ▸ hc), fun e => h2 (e ▸ hc), fun e => h3 (e ▸ hc), fun e => h4 (e ▸ hc)⟩

/-- One more tag in front. -/
theorem line_more {j r q : Bytes} (hj : EQS ∉ j) (hjs : SP ∉ j) (hr : SEMI ∉ r) (hrs : SP ∉ r) (hq : SP ∈ q) :
    line (AT :: (j ++ EQS :: (r ++ SEMI :: q))) = (line (AT :: q)).map fun l => { l with tags := (j, r) :: l.tags } := by
  cases hc : cut SP q with
  | none => exact absurd hq (cut_eq_none hc)
  | some ab =>
    obtain ⟨a, b⟩ := ab
    obtain ⟨rfl, ha⟩ := cut_eq_some hc
    unfold line
    rw [show AT :: (j ++ EQS :: (r ++ SEMI :: (a ++ SP :: b))) = AT :: ((j ++ EQS :: (r ++ SEMI :: a)) ++ SP :: b) by simp,
      takeTags_space _ (by simp [hjs, hrs, ha, show SP ≠ EQS by decide, show SP ≠ SEMI by decide]), takeTags_space _ ha]
    simp only []
    rw [splitTags_cons hj hr]
    split <;> rfl

/-- Likewise for the second tag. -/
theorem second_tag_literally {j r k rest : Bytes} {t : List Char} (hjk : j ≠ k) (hj : EQS ∉ j) (hjs : SP ∉ j) (hk : EQS ∉ k)
    (hks : SP ∉ k) (hr : SEMI ∉ r) (hrs : SP ∉ r)
    (h : ReadsTag (AT :: (j ++ EQS :: (r ++ SEMI :: (k ++ EQS :: (enc t ++ SP :: rest))))) k t) : ∀ c ∈ t, Literally c := by
  obtain ⟨l, cs, hl, hv, hu⟩ := h
  rw [line_more hj hjs hr hrs (by simp)] at hl
  obtain ⟨l', hl', rfl⟩ := Option.map_eq_some_iff.1 hl
  refine first_tag_literally (.inr rfl) hk hks ⟨l', cs, hl', ?_, hu⟩
  unfold Line.tag at hv ⊢
  rwa [lookup, if_neg hjk] at hv

end Tmi.Proofs
