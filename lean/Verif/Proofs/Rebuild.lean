/-
Lemmas for C16: what the pieces of a line lose.
-/
import Verif.Proofs.LineSpec
import Verif.Spec.Rebuild

namespace Tmi.Model
open Tmi.Spec

theorem splitTags_mem (n : Nat) : ∀ s : Bytes, s.length ≤ n → ∀ p ∈ splitTags s,
    EQS ∉ p.1 ∧ SEMI ∉ p.2 ∧ p.1 ⊆ s ∧ p.2 ⊆ s := by
  induction n with
  | zero =>
    intro s hs p hp
    have : s = [] := List.length_eq_zero_iff.1 (by omega)
    subst this
    rw [splitTags_nil] at hp
    simp at hp
  | succ n ih =>
    intro s hs p hp
    rw [splitTags] at hp
    split at hp
    · simp at hp
    · rename_i k r hk
      obtain ⟨rfl, hk2⟩ := cut_eq_some hk
      split at hp
      · rename_i hv
        simp at hp
        subst hp
        refine ⟨hk2, cut_eq_none hv, ?_, ?_⟩
        · intro x hx; simp [hx]
        · intro x hx; simp at hx; simp [hx]
      · rename_i v r' hv
        obtain ⟨rfl, hv2⟩ := cut_eq_some hv
        rcases List.mem_cons.1 hp with rfl | hp
        · refine ⟨hk2, hv2, ?_, ?_⟩
          · intro x hx; simp [hx]
          · intro x hx; simp at hx; simp [hx]
        · obtain ⟨h1, h2, h3, h4⟩ := ih r' (by simp at hs; omega) p hp
          refine ⟨h1, h2, ?_, ?_⟩
          · intro x hx; simp [h3 hx]
          · intro x hx; simp [h4 hx]

theorem cut_unique {x : UInt8} {a a' b b' : Bytes} (ha : x ∉ a) (ha' : x ∉ a')
    (h : a ++ x :: b = a' ++ x :: b') : a = a' ∧ b = b' := by
  have h1 := cut_append b ha
  rw [h, cut_append b' ha'] at h1
  simp at h1
  exact ⟨h1.1.symm, h1.2.symm⟩

theorem cutLast_subset {x : UInt8} : ∀ {s a b : Bytes}, cutLast x s = some (a, b) → a ⊆ s ∧ b ⊆ s
  | [], _, _, h => by simp [cutLast] at h
  | y :: t, a, b, h => by
    unfold cutLast at h
    split at h
    · rename_i a' b' h'
      have := cutLast_subset h'
      simp at h
      obtain ⟨rfl, rfl⟩ := h
      refine ⟨?_, fun z hz => List.mem_cons_of_mem _ (this.2 hz)⟩
      intro z hz
      rcases List.mem_cons.1 hz with rfl | hz
      · simp
      · exact List.mem_cons_of_mem _ (this.1 hz)
    · split at h
      · simp at h
        obtain ⟨rfl, rfl⟩ := h
        exact ⟨by simp, fun z hz => List.mem_cons_of_mem _ hz⟩
      · simp at h

theorem display_no_space {p : Bytes} (hp : SP ∉ p) :
    SP ∉ (⟨nickOf p, userOf p, hostOf p⟩ : Prefix).display := by
  have hh : SP ∉ hostOf p := by
    unfold hostOf
    split
    · rename_i h; exact fun hs => hp ((cutLast_subset h).2 hs)
    · exact hp
  have hn : ∀ n, nickOf p = some n → SP ∉ n := by
    intro n h
    unfold nickOf at h
    split at h
    · rename_i h'
      simp at h; subst h
      exact fun hs => hp ((cutLast_subset h').1 hs)
    · simp at h
      obtain ⟨b, h⟩ := h
      exact fun hs => hp ((cutLast_subset h).1 hs)
  have hu : ∀ n, userOf p = some n → SP ∉ n := by
    intro n h
    unfold userOf at h
    split at h
    · rename_i h'
      simp at h
      obtain ⟨b, h⟩ := h
      exact fun hs => hp ((cutLast_subset h').1 ((cutLast_subset h).2 hs))
    · simp at h
  unfold Prefix.display
  simp only []
  cases e1 : nickOf p with
  | none =>
    cases e2 : userOf p with
    | none => simpa using hh
    | some u => simp
  | some n =>
    have := hn n e1
    cases e2 : userOf p with
    | none => simp [this, hh]; decide
    | some u =>
      have := hu u e2
      simp [*]; decide

theorem line_prefix_no_space {s : Bytes} {l : Line} (h : line s = some l) {p : Bytes}
    (hp : l.prefix? = some p) : SP ∉ p := by
  unfold line at h
  simp only [] at h
  split at h
  · simp at h
  · simp at h
    subst h
    simp only [] at hp
    rcases takePrefix_cases (takeTags s).2 with ⟨q, rest, _, hq, ht⟩ | ht
    · rw [ht] at hp; simp at hp; rw [← hp]; exact hq
    · rw [ht] at hp; simp at hp

/-- The command, channel and params of a line, as they are written. -/
def bodyOf (l : Line) : Bytes :=
  l.command ++ (match l.channel with | some c => [SP] ++ c | none => [])
    ++ (match l.params with | some p => [SP] ++ p | none => [])

def tagPart : Option Bytes → Bytes
  | some t => [AT] ++ t ++ [SP]
  | none => []

def prefixPart : Option Bytes → Bytes
  | some p => [COLON] ++ p ++ [SP]
  | none => []

theorem bodyOf_last {s : Bytes} {l : Line} (h : line s = some l) (hp : l.params = none) :
    ∃ x a, bodyOf l = a ++ [x] ∧ x ≠ SP := by
  obtain ⟨h1, h2⟩ := line_command_ne h
  have key : ∀ c : Bytes, c ≠ [] → SP ∉ c → ∃ x a, c = a ++ [x] ∧ x ≠ SP := by
    intro c h1 h2
    refine ⟨c.getLast h1, c.dropLast, (List.dropLast_concat_getLast h1).symm, ?_⟩
    intro e
    exact h2 (e ▸ List.getLast_mem h1)
  unfold bodyOf
  rw [hp]
  cases hc : l.channel with
  | none => simpa using key _ h1 h2
  | some c =>
    obtain ⟨n, rfl, hn⟩ := line_channel h hc
    obtain ⟨x, a, e, hx⟩ := key (HASH :: n) (by simp) (by simp [hn]; decide)
    refine ⟨x, l.command ++ SP :: a, ?_, hx⟩
    rw [e]; simp

theorem trail_iff {s : Bytes} {l : Line} (h : line s = some l) (pre : Bytes) {trail : Bytes}
    (hs : s = pre ++ (bodyOf l ++ trail)) (ht : trail = [] ∨ (trail = [SP] ∧ l.params = none)) :
    bodyOf l ++ trail = bodyOf l ↔ EndCanonical s := by
  rcases ht with rfl | ⟨rfl, hp⟩
  · simp only [List.append_nil, true_iff]
    intro l' h' hp'
    rw [h] at h'
    simp at h'
    subst h'
    obtain ⟨x, a, e, hx⟩ := bodyOf_last h hp'
    rw [hs, e]
    simp [← List.append_assoc]
    exact hx
  · constructor
    · intro e; simp at e
    · intro e
      exact absurd (by rw [hs]; simp [← List.append_assoc]) (e l h hp)

theorem prefix_iff {s : Bytes} {l : Line} (h : line s = some l) (pre : Bytes) {trail : Bytes}
    (hs : s = pre ++ (prefixPart l.prefix? ++ (bodyOf l ++ trail)))
    (ht : trail = [] ∨ (trail = [SP] ∧ l.params = none)) :
    prefixPart l.prefix? ++ (bodyOf l ++ trail) =
      prefixPart (l.prefix?.map fun p => (⟨nickOf p, userOf p, hostOf p⟩ : Prefix).display) ++ bodyOf l ↔
    PrefixCanonical s ∧ EndCanonical s := by
  rw [← trail_iff h (pre ++ prefixPart l.prefix?) (by rw [hs]; simp) ht]
  cases hp : l.prefix? with
  | none =>
    simp only [prefixPart, Option.map_none, List.nil_append]
    refine ⟨fun e => ⟨?_, e⟩, fun e => e.2⟩
    intro l' p h' hp'
    rw [h] at h'
    simp at h'
    subst h'
    rw [hp] at hp'
    simp at hp'
  | some p =>
    have hsp := line_prefix_no_space h hp
    have hd := display_no_space hsp
    have hc : PrefixCanonical s ↔ BANG ∉ hostOf p := by
      constructor
      · intro hh; exact hh l p h hp
      · intro hh l' p' h' hp'
        rw [h] at h'
        simp at h'
        subst h'
        rw [hp] at hp'
        simp at hp'
        rw [← hp']; exact hh
    rw [hc, ← display_iff p]
    simp only [prefixPart, Option.map_some, List.cons_append, List.nil_append, List.append_assoc,
      List.cons.injEq, true_and]
    constructor
    · intro e
      obtain ⟨e1, e2⟩ := cut_unique hsp hd e
      exact ⟨e1.symm, e2⟩
    · rintro ⟨e1, e2⟩
      rw [e1, e2]

/-- C16, on the grammar. -/
theorem rebuild_iff {s : Bytes} {l : Line} (h : line s = some l) :
    s = rebuild l.tags (l.prefix?.map fun p => (⟨nickOf p, userOf p, hostOf p⟩ : Prefix).display)
      l.command l.channel l.params ↔ TagsCanonical s ∧ PrefixCanonical s ∧ EndCanonical s := by
  obtain ⟨t, ht, htags, hr⟩ := line_rebuild h
  have hr : ∃ trail, (trail = [] ∨ (trail = [SP] ∧ l.params = none)) ∧
      s = tagPart t ++ (prefixPart l.prefix? ++ (bodyOf l ++ trail)) := by
    rcases hr with hr | ⟨hp, hr⟩
    · refine ⟨[], .inl rfl, hr.trans ?_⟩
      clear hr htags ht
      rcases t with _ | t <;> rcases l.prefix? with _ | p <;>
        simp [tagPart, prefixPart, bodyOf] <;> rfl
    · refine ⟨[SP], .inr ⟨rfl, hp⟩, hr.trans ?_⟩
      clear hr htags ht
      rcases t with _ | t <;> rcases l.prefix? with _ | p <;>
        simp [tagPart, prefixPart, bodyOf, hp] <;> rfl
  obtain ⟨trail, htr, hs⟩ := hr
  have hre : rebuild l.tags
      (l.prefix?.map fun p => (⟨nickOf p, userOf p, hostOf p⟩ : Prefix).display) l.command l.channel
      l.params = (if l.tags = [] then [] else [AT] ++ renderTags l.tags ++ [SP]) ++
      (prefixPart (l.prefix?.map fun p => (⟨nickOf p, userOf p, hostOf p⟩ : Prefix).display) ++
        bodyOf l) := by
    simp only [rebuild, bodyOf, List.append_assoc]
    cases l.prefix? <;> rfl
  rw [hre]
  rw [← prefix_iff h _ hs htr]
  rcases takeTags_cases s with ⟨t', rest, he, hsp, hk⟩ | hk
  · rw [hk] at ht
    subst ht
    simp only [tagPart] at htags hs
    have hrest : rest = prefixPart l.prefix? ++ (bodyOf l ++ trail) := by
      rw [he] at hs
      simp only [List.cons_append, List.nil_append, List.append_assoc, List.cons.injEq, true_and] at hs
      exact (cut_unique hsp hsp hs).2
    have hcan : TagsCanonical s ↔ l.tags ≠ [] ∧ renderTags l.tags = t' := by
      constructor
      · intro hh
        obtain ⟨ps, h1, h2, h3⟩ := hh t' rest he hsp
        have := splitTags_render ps h2
        rw [← h3, ← htags] at this
        rw [this]
        exact ⟨h1, h3.symm⟩
      · rintro ⟨h1, h2⟩ t'' rest' e hsp'
        rw [he] at e
        simp only [List.cons.injEq, true_and] at e
        obtain ⟨rfl, -⟩ := cut_unique hsp hsp' e
        refine ⟨l.tags, h1, ?_, h2.symm⟩
        intro p hp
        rw [htags] at hp
        have := splitTags_mem _ t' (Nat.le_refl _) p hp
        exact ⟨this.1, this.2.1⟩
    rw [hcan]
    by_cases h0 : l.tags = []
    · rw [if_pos h0]
      constructor
      · intro e
        exfalso
        rw [he, List.nil_append] at e
        cases hp : l.prefix? with
        | some p =>
          rw [hp] at e
          simp [prefixPart] at e
          exact absurd e.1 (by decide)
        | none =>
          rw [hp] at e hrest
          simp only [prefixPart, Option.map_none, List.nil_append] at e hrest
          have := congrArg List.length e
          rw [hrest] at this
          simp at this
          omega
      · rintro ⟨⟨h1, -⟩, -⟩
        exact absurd h0 h1
    · rw [if_neg h0]
      have hsp2 : SP ∉ renderTags l.tags := by
        refine renderTags_no_space _ fun p hp => ?_
        rw [htags] at hp
        have := splitTags_mem _ t' (Nat.le_refl _) p hp
        exact ⟨fun hx => hsp (this.2.2.1 hx), fun hx => hsp (this.2.2.2 hx)⟩
      rw [he]
      simp only [List.cons_append, List.nil_append, List.append_assoc, List.cons.injEq, true_and]
      constructor
      · intro e
        obtain ⟨e1, e2⟩ := cut_unique hsp hsp2 e
        exact ⟨⟨h0, e1.symm⟩, by rw [← hrest]; exact e2⟩
      · rintro ⟨⟨-, e1⟩, e2⟩
        rw [e1, hrest, e2]
  · rw [hk] at ht
    subst ht
    simp only [tagPart, List.nil_append] at htags hs
    rw [if_pos htags, List.nil_append]
    have hcan : TagsCanonical s := by
      intro t rest e hsp
      rw [e, takeTags_space rest hsp] at hk
      simp at hk
    rw [← hs]
    exact ⟨fun e => ⟨hcan, e⟩, fun e => e.2⟩

end Tmi.Model
