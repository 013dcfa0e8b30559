/-
Lemmas: how far a poll of the reader looks.
-/
import Verif.Spec.Prompt
import Verif.Props.Lines

namespace Tmi.Proofs
open Tmi.Model Tmi.Spec Tmi.Props

theorem unbroken_cons {x : Net} {l : List Net} (h : x ≠ .eof ∧ ∀ e, x ≠ .fail e) (hl : Unbroken l) : Unbroken (x :: l) := by
  intro y hy
  rcases List.mem_cons.1 hy with rfl | hy
  · exact h
  · exact hl y hy

theorem unbroken_append {a b : List Net} (ha : Unbroken a) (hb : Unbroken b) : Unbroken (a ++ b) := by
  intro y hy
  rcases List.mem_append.1 hy with hy | hy
  · exact ha y hy
  · exact hb y hy

theorem arrived_fine {a : List Net} (b : List Net) (h : Unbroken a) : arrived (a ++ b) = arrived a ++ arrived b := by
  induction a with
  | nil => rfl
  | cons x a ih =>
    have ih := ih fun y hy => h y (List.mem_cons_of_mem _ hy)
    cases x with
    | data bs => simp [arrived, ih]
    | pending => simp [arrived, ih]
    | fail e => exact absurd rfl ((h (.fail e) (by simp)).2 e)
    | eof => exact absurd rfl (h .eof (by simp)).1

/-- How `read_until` can end, and what it looks at. -/
inductive Looks (r : Reader) (net : List Net) : Polled (Except IoError Unit) → Prop
  | found {r' : Reader} {net' : List Net} (seen : List Net) (hn : net = seen ++ net') (hf : Unbroken seen) (a : Bytes)
      (ha : LF ∉ a) (h : r'.bytes = a ++ [LF]) (ht : r.bytes ++ r.avail ++ arrived seen = a ++ LF :: r'.avail)
      (hs : LF ∈ r.avail → seen = []) (hd : r'.done = r.done) : Looks r net ⟨.ready (.ok ()), r', net'⟩
  | eof {r' : Reader} {net' : List Net} (seen : List Net) (hn : net = seen ++ .eof :: net') (hf : Unbroken seen)
      (h : r'.bytes = r.bytes ++ r.avail ++ arrived seen) (ha : LF ∉ r'.bytes) (hv : r'.avail = [])
      (hd : r'.done = r.done) : Looks r net ⟨.ready (.ok ()), r', .eof :: net'⟩
  | fail {r' : Reader} {net' : List Net} (seen : List Net) (e : IoError) (hn : net = seen ++ .fail e :: net')
      (ha : LF ∉ r.avail) : Looks r net ⟨.ready (.error e), r', net'⟩
  | wait {r' : Reader} {net' : List Net} (seen : List Net) (hn : net = seen ++ net') (hf : Unbroken seen)
      (hw : (∃ s, seen = s ++ [.pending]) ∨ net' = [])
      (h : r'.bytes = r.bytes ++ r.avail ++ arrived seen) (ha : LF ∉ r'.bytes) (hv : r'.avail = [])
      (hd : r'.done = r.done) : Looks r net ⟨.pending, r', net'⟩

theorem looks_empty (r : Reader) (net : List Net) (hr : LF ∉ r.bytes) (hv : r.avail = []) :
    Looks r net (r.readUntilEmpty net) := by
  induction net generalizing r with
  | nil =>
    rw [Reader.readUntilEmpty]
    exact .wait [] rfl (by simp [Unbroken]) (.inr rfl) (by simp [hv, arrived]) hr hv rfl
  | cons x net ih =>
    cases x with
    | pending =>
      rw [Reader.readUntilEmpty]
      exact .wait [.pending] rfl (by simp [Unbroken]) (.inl ⟨[], rfl⟩) (by simp [hv, arrived]) hr hv rfl
    | fail e =>
      rw [Reader.readUntilEmpty]
      exact .fail [] e rfl (by simp [hv])
    | eof =>
      rw [Reader.readUntilEmpty]
      exact .eof [] rfl (by simp [Unbroken]) (by simp [hv, arrived]) hr hv rfl
    | data bs =>
      rw [Reader.readUntilEmpty]
      have ok : (Net.data bs ≠ .eof ∧ ∀ e, Net.data bs ≠ .fail e) := by simp
      rcases scan_cases { r with avail := bs } hr with ⟨a, b, h1, h2, h3⟩ | ⟨h1, h2⟩
      · rw [h3]
        refine .found [.data bs] rfl (unbroken_cons ok (by simp [Unbroken])) a h1 rfl ?_ (by simp [hv]) rfl
        simp only [] at h2 ⊢
        rw [hv, List.append_nil]
        simpa [arrived] using h2
      · rw [h2]
        simp only [] at h1 ⊢
        have := ih { r with bytes := r.bytes ++ bs, avail := [] } h1 rfl
        have e : ∀ seen, r.bytes ++ bs ++ [] ++ arrived seen = r.bytes ++ r.avail ++ arrived (.data bs :: seen) := by
          intro seen; simp [hv, arrived]
        generalize Reader.readUntilEmpty { r with bytes := r.bytes ++ bs, avail := [] } net = p at this ⊢
        cases this with
        | found seen g1 g2 a g3 g4 g5 g6 g7 =>
          exact .found (.data bs :: seen) (by rw [g1]; rfl) (unbroken_cons ok g2) a g3 g4 ((e seen).symm.trans g5)
            (by simp [hv]) g7
        | eof seen g1 g2 g3 g4 g5 g6 =>
          exact .eof (.data bs :: seen) (by rw [g1]; rfl) (unbroken_cons ok g2) (g3.trans (e seen)) g4 g5 g6
        | fail seen x g1 g2 => exact .fail (.data bs :: seen) x (by rw [g1]; rfl) (by simp [hv])
        | wait seen g1 g2 g3 g4 g5 g6 g7 =>
          refine .wait (.data bs :: seen) (by rw [g1]; rfl) (unbroken_cons ok g2) ?_ (g4.trans (e seen)) g5 g6 g7
          rcases g3 with ⟨s, rfl⟩ | g3
          · exact .inl ⟨.data bs :: s, rfl⟩
          · exact .inr g3

theorem looks (r : Reader) (net : List Net) (hr : LF ∉ r.bytes) : Looks r net (r.readUntil net) := by
  unfold Reader.readUntil
  by_cases hv : r.avail = []
  · rw [if_pos hv]; exact looks_empty r net hr hv
  · rw [if_neg hv]
    rcases scan_cases r hr with ⟨a, b, h1, h2, h3⟩ | ⟨h1, h2⟩
    · rw [h3]
      exact .found [] rfl (by simp [Unbroken]) a h1 rfl (by simpa [arrived] using h2) (fun _ => rfl) rfl
    · rw [h2]
      simp only []
      have hl : LF ∉ r.avail := fun h => h1 (List.mem_append_right _ h)
      have := looks_empty { r with bytes := r.bytes ++ r.avail, avail := [] } net h1 rfl
      generalize Reader.readUntilEmpty { r with bytes := r.bytes ++ r.avail, avail := [] } net = p at this ⊢
      cases this with
      | found seen g1 g2 a g3 g4 g5 g6 g7 =>
        exact .found seen g1 g2 a g3 g4 (by simpa using g5) (fun h => absurd h hl) g7
      | eof seen g1 g2 g3 g4 g5 g6 => exact .eof seen g1 g2 (by simpa using g3) g4 g5 g6
      | fail seen x g1 g2 => exact .fail seen x g1 hl
      | wait seen g1 g2 g3 g4 g5 g6 g7 => exact .wait seen g1 g2 g3 (by simpa using g4) g5 g6 g7

/-- How a poll can end, and what it looks at. -/
inductive LooksOnce (r : Reader) (net : List Net) : Polled (Option (Except IoError Bytes)) → Prop
  | line {r' : Reader} {net' : List Net} (seen : List Net) (hn : net = seen ++ net') (hf : Unbroken seen) (a : Bytes)
      (ha : LF ∉ a) (h : r'.bytes = []) (ht : r.bytes ++ r.avail ++ arrived seen = a ++ LF :: r'.avail)
      (hs : LF ∈ r.avail → seen = []) (hd : r'.done = false) :
      LooksOnce r net ⟨.ready (some (deliver (stripCR a))), r', net'⟩
  | eof {i : Option (Except IoError Bytes)} {r' : Reader} {net' : List Net} (seen : List Net)
      (hn : net = seen ++ .eof :: net') (hf : Unbroken seen) (hl : LF ∉ r.bytes ++ r.avail ++ arrived seen)
      (hb : r'.bytes = []) (hv : r'.avail = []) : LooksOnce r net ⟨.ready i, r', .eof :: net'⟩
  | fail {i : Option (Except IoError Bytes)} {r' : Reader} {net' : List Net} (seen : List Net) (e : IoError)
      (hn : net = seen ++ .fail e :: net') (hl : LF ∉ r.avail) (hb : r'.bytes = []) :
      LooksOnce r net ⟨.ready i, r', net'⟩
  | wait {r' : Reader} {net' : List Net} (seen : List Net) (hn : net = seen ++ net') (hf : Unbroken seen)
      (hw : (∃ s, seen = s ++ [.pending]) ∨ net' = [])
      (h : r'.bytes = r.bytes ++ r.avail ++ arrived seen) (ha : LF ∉ r'.bytes) (hv : r'.avail = [])
      (hd : r'.done = false) : LooksOnce r net ⟨.pending, r', net'⟩

theorem looks_once (r : Reader) (net : List Net) (hr : LF ∉ r.bytes) (hd : r.done = false) :
    LooksOnce r net (r.poll net) := by
  unfold Reader.poll
  rw [if_neg (by simp [hd])]
  unfold Reader.nextLine
  have h := looks r net hr
  generalize r.readUntil net = p at h ⊢
  cases h with
  | @found r' net' seen g1 g2 a g3 g4 g5 g6 g7 =>
    simp only [g4]
    by_cases hu : Utf8 a
    · have hu' : isUtf8 (a ++ [LF]) = true := (isUtf8_iff _).2 ((utf8_snoc (by decide)).2 hu)
      simp only [hu', not_true_eq_false, if_false]
      rw [if_neg (by simp)]
      have e : (some (.ok (chomp (a ++ [LF]))) : Option (Except IoError Bytes)) = some (deliver (stripCR a)) := by
        unfold deliver
        rw [if_pos ((utf8_stripCR a).2 hu), chomp_line]
      simp only [e]
      exact .line seen g1 g2 a g3 rfl g5 g6 (g7.trans hd)
    · have hu' : isUtf8 (a ++ [LF]) = false := by
        rw [← Bool.not_eq_true, isUtf8_iff, utf8_snoc (by decide)]; exact hu
      simp only [hu']
      rw [if_pos (by simp)]
      have e : (some (.error notUtf8) : Option (Except IoError Bytes)) = some (deliver (stripCR a)) := by
        unfold deliver
        rw [if_neg (fun h => hu ((utf8_stripCR a).1 h))]; rfl
      simp only [e]
      exact .line seen g1 g2 a g3 rfl g5 g6 (g7.trans hd)
  | @eof r' net' seen g1 g2 g3 g4 g5 g6 =>
    have hl : LF ∉ r.bytes ++ r.avail ++ arrived seen := by rw [← g3]; exact g4
    by_cases hu : ¬ isUtf8 r'.bytes = true
    · simp only []
      rw [if_pos hu]
      exact .eof seen g1 g2 hl rfl g5
    · simp only []
      rw [if_neg hu]
      by_cases hn : r'.bytes = []
      · rw [if_pos hn]; exact .eof seen g1 g2 hl hn g5
      · rw [if_neg hn]; exact .eof seen g1 g2 hl rfl g5
  | fail seen e g1 g2 => exact .fail seen e g1 g2 rfl
  | wait seen g1 g2 g3 g4 g5 g6 g7 => exact .wait seen g1 g2 g3 g4 g5 g6 (g7.trans hd)

theorem recvPoll_eq (b : Build) (r : Reader) (net : List Net) : recvPoll b r net =
    match r.poll net with
    | ⟨.pending, r, net⟩ => ⟨.pending, r, net⟩
    | ⟨.ready i, r, net⟩ => ⟨.ready (recvItem b i), r, net⟩ := rfl

/-- While no read has failed and the other side has not closed the connection: the text that arrived is the lines
that were returned, the part of the next line that is put aside, and the buffer. -/
structure Flowing (b : Build) (seen : List Net) (results : List (Except Stop (Except RecvError MsgOwned)))
    (r : Reader) : Prop where
  whole : Unbroken seen
  done : r.done = false
  given : ∃ p, arrived seen = p ++ (r.bytes ++ r.avail) ∧ (∀ t, delivered (p ++ t) = delivered p ++ delivered t) ∧
    results = (delivered p).map (expected b)

/-- The states of a connection that is received from. -/
structure Progress (b : Build) (net : List Net) (results : List (Except Stop (Except RecvError MsgOwned)))
    (r : Reader) (rest : List Net) (seen : List Net) : Prop where
  split : net = seen ++ rest
  aside : LF ∉ r.bytes
  state : Flowing b seen results r ∨ (∃ e, .fail e ∈ seen) ∨
    (rest.head? = some .eof ∧ r.bytes = [] ∧ r.avail = [] ∧ (delivered (arrived seen)).length ≤ results.length)

theorem recvItem_some (b : Build) (x : Except IoError Bytes) : recvItem b (some x) = expected b x := by
  have := map_recvItem b [x]
  simpa using this

/-- What has been read but not returned is returned by the next poll, which does not look at the connection. -/
theorem flowing_next {b : Build} {seen : List Net} {results : List (Except Stop (Except RecvError MsgOwned))}
    {r : Reader} (f : Flowing b seen results r) (hr : LF ∉ r.bytes) (rest : List Net) (x : Except IoError Bytes)
    (hx : (delivered (arrived seen))[results.length]? = some x) :
    ∃ r', recvPoll b r rest = ⟨.ready (expected b x), r', rest⟩ := by
  obtain ⟨p, h1, h2, h3⟩ := f.given
  have hd : delivered (arrived seen) = delivered p ++ delivered (r.bytes ++ r.avail) := by rw [h1, h2]
  have hlen : results.length = (delivered p).length := by rw [h3, List.length_map]
  rw [hd, hlen, List.getElem?_append_right (Nat.le_refl _), Nat.sub_self] at hx
  have hlf : LF ∈ r.bytes ++ r.avail := by
    apply Classical.byContradiction
    intro h
    rw [(delivered_rest h).1] at hx
    simp at hx
  have hv : LF ∈ r.avail := by
    rcases List.mem_append.1 hlf with h | h
    · exact absurd h hr
    · exact h
  have hl := looks_once r rest hr f.done
  rw [recvPoll_eq]
  generalize r.poll rest = q at hl ⊢
  cases hl with
  | @line r' net' s g1 g2 a g3 g4 g5 g6 g7 =>
    have := g6 hv
    subst this
    simp only [arrived, List.append_nil] at g5
    rw [g5, (delivered_line _ g3).1] at hx
    simp only [List.getElem?_cons_zero, Option.some.injEq] at hx
    rw [hx]; simp only [recvItem_some]
    exact ⟨r', by rw [g1]; rfl⟩
  | eof s g1 g2 g3 => exact absurd (by simp [hv]) g3
  | fail s e g1 g2 => exact absurd hv g2
  | wait s g1 g2 g3 g4 g5 =>
    rw [g4] at g5
    exact absurd (by simp [hv]) g5

theorem progress {b : Build} {net : List Net} {results : List (Except Stop (Except RecvError MsgOwned))}
    {r : Reader} {rest : List Net} (h : Receiving b net results r rest) :
    ∃ seen, Progress b net results r rest seen := by
  induction h with
  | start =>
    exact ⟨[], rfl, by simp [Reader.new], .inl ⟨by simp [Unbroken], rfl, [], rfl,
      by intro t; rw [(delivered_rest (a := []) (by simp)).1]; rfl, by
      rw [(delivered_rest (a := []) (by simp)).1]; rfl⟩⟩
  | @waits results r r' rest rest' h hp ih =>
    obtain ⟨seen, i⟩ := ih
    rw [recvPoll_eq] at hp
    by_cases hdone : r.done = true
    · have : r.poll rest = ⟨.ready none, r, rest⟩ := by unfold Reader.poll; rw [if_pos hdone]
      rw [this] at hp
      simp at hp
    have hl := looks_once r rest i.aside (by simpa using hdone)
    generalize r.poll rest = q at hl hp
    cases hl with
    | line => simp at hp
    | eof => simp at hp
    | fail => simp at hp
    | @wait r'' net'' s g1 g2 g3 g4 g5 g6 g7 =>
      simp only [Polled.mk.injEq, true_and] at hp
      obtain ⟨rfl, rfl⟩ := hp
      refine ⟨seen ++ s, by rw [i.split, g1, List.append_assoc], g5, ?_⟩
      rcases i.state with f | ⟨e, he⟩ | ⟨h1, h2, h3, h4⟩
      · obtain ⟨p, k1, k2, k3⟩ := f.given
        refine .inl ⟨unbroken_append f.whole g2, g7, p, ?_, k2, k3⟩
        rw [arrived_fine _ f.whole, k1, g4, g6]
        simp
      · exact .inr (.inl ⟨e, List.mem_append_left _ he⟩)
      · cases s with
        | nil =>
          refine .inr (.inr ⟨by rw [g1] at h1; exact h1, by rw [g4, h2, h3]; rfl, g6, ?_⟩)
          simpa using h4
        | cons x s =>
          rw [g1] at h1
          simp only [List.cons_append, List.head?_cons, Option.some.injEq] at h1
          exact absurd h1 (g2 x (by simp)).1
  | @returns results r r' rest rest' x h hp ih =>
    obtain ⟨seen, i⟩ := ih
    rw [recvPoll_eq] at hp
    by_cases hdone : r.done = true
    · have : r.poll rest = ⟨.ready none, r, rest⟩ := by unfold Reader.poll; rw [if_pos hdone]
      rw [this] at hp
      simp only [Polled.mk.injEq, Poll.ready.injEq] at hp
      obtain ⟨_, rfl, rfl⟩ := hp
      refine ⟨seen, i.split, i.aside, ?_⟩
      rcases i.state with f | h | ⟨h1, h2, h3, h4⟩
      · exact absurd f.done (by simp [hdone])
      · exact .inr (.inl h)
      · exact .inr (.inr ⟨h1, h2, h3, by rw [List.length_append]; omega⟩)
    have hl := looks_once r rest i.aside (by simpa using hdone)
    generalize r.poll rest = q at hl hp
    cases hl with
    | @line r'' net'' s g1 g2 a g3 g4 g5 g6 g7 =>
      simp only [Polled.mk.injEq, Poll.ready.injEq] at hp
      obtain ⟨hx, rfl, rfl⟩ := hp
      refine ⟨seen ++ s, by rw [i.split, g1, List.append_assoc], by rw [g4]; simp, ?_⟩
      rcases i.state with f | ⟨e, he⟩ | ⟨h1, h2, h3, h4⟩
      · obtain ⟨p, k1, k2, k3⟩ := f.given
        have hp1 : delivered (p ++ (a ++ [LF])) = delivered p ++ [deliver (stripCR a)] := by
          rw [k2, (delivered_line [] g3).1, (delivered_rest (a := []) (by simp)).1]
        refine .inl ⟨unbroken_append f.whole g2, g7, p ++ (a ++ [LF]), ?_, ?_, ?_⟩
        · rw [arrived_fine _ f.whole, k1, g4, List.append_assoc, g5]
          simp
        · intro t
          have : p ++ (a ++ [LF]) ++ t = p ++ (a ++ LF :: t) := by simp
          rw [this, k2, (delivered_line t g3).1, hp1]
          simp
        · rw [hp1, List.map_append, k3, ← hx, recvItem_some]; rfl
      · exact .inr (.inl ⟨e, List.mem_append_left _ he⟩)
      · cases s with
        | nil =>
          rw [h2, h3] at g5
          simp [arrived] at g5
        | cons x s =>
          rw [g1] at h1
          simp only [List.cons_append, List.head?_cons, Option.some.injEq] at h1
          exact absurd h1 (g2 x (by simp)).1
    | @eof j r'' net'' s g1 g2 g3 g4 g5 =>
      simp only [Polled.mk.injEq, Poll.ready.injEq] at hp
      obtain ⟨hx, rfl, rfl⟩ := hp
      refine ⟨seen ++ s, by rw [i.split, g1, List.append_assoc], by rw [g4]; simp, ?_⟩
      rcases i.state with f | ⟨e, he⟩ | ⟨h1, h2, h3, h4⟩
      · obtain ⟨p, k1, k2, k3⟩ := f.given
        refine .inr (.inr ⟨rfl, g4, g5, ?_⟩)
        rw [arrived_fine _ f.whole, k1, List.append_assoc, k2, (delivered_rest g3).1, k3]
        simp
      · exact .inr (.inl ⟨e, List.mem_append_left _ he⟩)
      · cases s with
        | nil => exact .inr (.inr ⟨rfl, g4, g5, by rw [List.length_append, List.append_nil]; omega⟩)
        | cons x s =>
          rw [g1] at h1
          simp only [List.cons_append, List.head?_cons, Option.some.injEq] at h1
          exact absurd h1 (g2 x (by simp)).1
    | @fail j r'' net'' s e g1 g2 g3 =>
      simp only [Polled.mk.injEq, Poll.ready.injEq] at hp
      obtain ⟨hx, rfl, rfl⟩ := hp
      exact ⟨seen ++ (s ++ [.fail e]), by rw [i.split, g1]; simp, by rw [g3]; simp, .inr (.inl ⟨e, by simp⟩)⟩
    | wait => simp at hp

end Tmi.Proofs
