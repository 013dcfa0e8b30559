import Verif.Proofs.NetLines

/-! What a session over bytes depends on. -/

namespace Tmi.Proofs
open Tmi.Model Tmi.Spec

theorem ending_noFail {net : List Net} (h : ∀ e, Net.fail e ∉ net) (e : IoError) : ending net ≠ .failed e := by
  induction net with
  | nil => simp [ending]
  | cons x net ih =>
    have ih := ih fun e he => h e (List.mem_cons_of_mem _ he)
    cases x with
    | data bs => exact ih
    | pending => exact ih
    | fail e' => exact absurd List.mem_cons_self (h e')
    | eof => simp [ending]

/-- How waiting for an item ends when nobody interrupts it. -/
structure PatientPoll (r : Reader) (net : List Net) (k : Nat)
    (p : Except Stop (Option (Except IoError Bytes)) × Reader × List Net × List Wait) : Prop where
  again : ∀ w ∈ p.2.2.2, w = .again
  suffix : p.2.2.1 <:+ net
  done : r.done = true → p.1 = .ok none ∧ p.2.1.done = true
  item : ∀ i q, rest r net = i :: q → p.1 = .ok (some i) ∧ rest p.2.1 p.2.2.1 = q ∧ p.2.1.done = false ∧
    ending p.2.2.1 = ending net
  closed : r.done = false → rest r net = [] → ending net = .closed → p.1 = .ok none ∧ p.2.1.done = true
  open_ : r.done = false → rest r net = [] → ending net = .open_ → p.1 = .error .dropped ∧ p.2.1.done = false ∧
    rest p.2.1 p.2.2.1 = [] ∧ ending p.2.2.1 = .open_
  enough : p.1 ≠ .error .dropped → p.2.2.1.length + k ≤ p.2.2.2.length

theorem deliveredAll_ne_nil {t : Bytes} (h : t ≠ []) : deliveredAll t ≠ [] := by
  by_cases hl : LF ∈ t
  · obtain ⟨a, b, rfl, ha⟩ := List.append_of_mem hl |> fun ⟨s, u, e⟩ => (List.eq_append_cons_of_mem hl)
    rw [deliveredAll_line _ ha]; simp
  · unfold deliveredAll
    rw [(delivered_rest hl).2, if_neg h]; simp

/-- How one poll ends. -/
inductive PollCase (r : Reader) (net : List Net) : Polled (Option (Except IoError Bytes)) → Prop
  | item {i r' net'} (h : rest r net = i :: rest r' net') (hd : r'.done = false) (he : ending net' = ending net) :
      PollCase r net ⟨.ready (some i), r', net'⟩
  | ended {r' net'} (h : rest r net = []) (he : ending net = .closed) (hd : r'.done = true) :
      PollCase r net ⟨.ready none, r', net'⟩
  | fail {e r' net'} (h : rest r net = []) (he : ending net = .failed e) : PollCase r net ⟨.ready (some (.error e)), r', net'⟩
  | wait {r' net'} (h : rest r' net' = rest r net) (hd : r'.done = false) (he : ending net' = ending net)
      (hl : net'.length < net.length) : PollCase r net ⟨.pending, r', net'⟩
  | stuck {r'} (h : rest r net = []) (h' : rest r' [] = []) (hd : r'.done = false) (he : ending net = .open_) :
      PollCase r net ⟨.pending, r', []⟩

theorem poll_case {r : Reader} {net : List Net} (hs : Sound r net) (hd : r.done = false) :
    PollCase r net (r.poll net) := by
  have h := step_cases r net (hs.inside hd) hd
  have hr : rest r net = if ending net = .closed then deliveredAll (text r net) else delivered (text r net) := by
    unfold rest; rw [if_neg (by simp [hd])]
  generalize r.poll net = p at h
  cases h with
  | @line r' net' a ha hb hd' ht he hl =>
    refine .item ?_ hd' he
    have hr' : rest r' net' = if ending net' = .closed then deliveredAll (text r' net') else delivered (text r' net') := by
      unfold rest; rw [if_neg (by simp [hd'])]
    rw [hr, hr', he, ht]
    split
    · rw [deliveredAll_line _ ha]
    · rw [(delivered_line _ ha).1]
  | @last r' net' ha hne hr' he =>
    subst hr'
    refine .item ?_ rfl (by rw [he]; rfl)
    · rw [hr, if_pos he]
      unfold deliveredAll
      rw [(delivered_rest ha).1, (delivered_rest ha).2, if_neg hne]
      unfold rest
      rw [if_neg (by simp [Reader.new]), if_pos (by rfl), text_new, arrived.eq_3 _ (by simp) (by simp), deliveredAll_nil]
      rfl
  | ended ha he hd' => exact .ended (by rw [hr, if_pos he, ha, deliveredAll_nil]) he hd'
  | fail e ha he hr' hsuf => exact .fail (by rw [hr, he, if_neg (by simp), (delivered_rest ha).1]) he
  | @wait r' net' ht hb he hl hd' =>
    refine .wait ?_ hd' he hl
    simp only [rest, hd, hd', he, ht]
  | @stuck r' ht h hv he hd' =>
    refine .stuck ?_ ?_ hd' he
    · rw [hr, he, if_neg (by simp), (delivered_rest h).1]
    · unfold rest
      have : text r' [] = text r net := by simp [text, ht, hv, arrived]
      rw [if_neg (by simp [hd']), if_neg (by simp [ending]), this, (delivered_rest h).1]

theorem pollLoop_stuck (ws : List Wait) {r : Reader} (hs : Sound r []) (hw : ∀ w ∈ ws, w = .again)
    (hd : r.done = false) (hr : rest r [] = []) :
    ∃ r', pollLoop ws r [] = (.error .dropped, r', [], []) ∧ r'.done = false ∧ rest r' [] = [] := by
  induction ws generalizing r with
  | nil =>
    have h := poll_case hs hd
    have hsuf := poll_suffix r []
    rw [pollLoop]
    generalize r.poll [] = p at h hsuf
    cases h with
    | item h _ _ => rw [hr] at h; cases h
    | ended _ he => simp [ending] at he
    | fail _ he => simp [ending] at he
    | wait _ _ _ hl => simp at hl
    | @stuck r' h h' hd' he => exact ⟨r', rfl, hd', h'⟩
  | cons w ws ih =>
    have hwa : w = .again := hw w List.mem_cons_self
    subst hwa
    have h := poll_case hs hd
    have hs' := (poll_takes hs).1
    rw [pollLoop]
    generalize r.poll [] = p at h hs'
    cases h with
    | item h _ _ => rw [hr] at h; cases h
    | ended _ he => simp [ending] at he
    | fail _ he => simp [ending] at he
    | wait _ _ _ hl => simp at hl
    | @stuck r' h h' hd' he => exact ih hs' (fun w h => hw w (List.mem_cons_of_mem _ h)) hd' h'

theorem pollLoop_patient (ws : List Wait) {r : Reader} {net : List Net} (hs : Sound r net) {k : Nat}
    (hw : ∀ w ∈ ws, w = .again) (hl : net.length + k ≤ ws.length) : PatientPoll r net k (pollLoop ws r net) := by
  cases hd : r.done with
  | true =>
    rw [pollLoop_done _ _ _ hd]
    refine ⟨hw, List.suffix_refl _, fun _ => ⟨rfl, hd⟩, ?_, fun h => ?_, fun h => ?_, fun _ => hl⟩
    · intro i q h; unfold rest at h; rw [if_pos hd] at h; cases h
    · simp [hd] at h
    · simp [hd] at h
  | false =>
    induction ws generalizing r net with
    | nil =>
      have hn : net = [] := by cases net with | nil => rfl | cons _ _ => simp at hl
      have h := poll_case hs hd
      have hsuf := poll_suffix r net
      rw [pollLoop]
      generalize r.poll net = p at h hsuf
      cases h with
      | @item i r' net' h hd' he =>
        refine ⟨by simp, hsuf, by simp [hd], ?_, ?_, ?_, ?_⟩
        · intro i' q h'; rw [h] at h'; cases h'; exact ⟨rfl, rfl, hd', he⟩
        · intro _ h'; rw [h] at h'; cases h'
        · intro _ h'; rw [h] at h'; cases h'
        · intro _; have := hsuf.length_le; simp only [] at this ⊢; omega
      | @ended r' net' h he hd' =>
        refine ⟨by simp, hsuf, by simp [hd], ?_, ?_, ?_, ?_⟩
        · intro i' q h'; rw [h] at h'; cases h'
        · intro _ _ _; exact ⟨rfl, hd'⟩
        · intro _ _ h'; rw [he] at h'; cases h'
        · intro _; have := hsuf.length_le; simp only [] at this ⊢; omega
      | @fail e r' net' h he =>
        refine ⟨by simp, hsuf, by simp [hd], ?_, ?_, ?_, ?_⟩
        · intro i' q h'; rw [h] at h'; cases h'
        · intro _ _ h'; rw [he] at h'; cases h'
        · intro _ _ h'; rw [he] at h'; cases h'
        · intro _; have := hsuf.length_le; simp only [] at this ⊢; omega
      | wait h hd' he hl' => subst hn; simp at hl'
      | @stuck r' h h' hd' he =>
        refine ⟨by simp, hsuf, by simp [hd], ?_, ?_, ?_, ?_⟩
        · intro i' q h'; rw [h] at h'; cases h'
        · intro _ _ h'; rw [he] at h'; cases h'
        · intro _ _ _; exact ⟨rfl, hd', h', rfl⟩
        · intro h'; exact absurd rfl h'
    | cons w ws ih =>
      have hwa : w = .again := hw w List.mem_cons_self
      have hws : ∀ w ∈ ws, w = .again := fun w h => hw w (List.mem_cons_of_mem _ h)
      subst hwa
      have h := poll_case hs hd
      have hsuf := poll_suffix r net
      have hs' := (poll_takes hs).1
      rw [pollLoop]
      generalize r.poll net = p at h hsuf hs'
      cases h with
      | @item i r' net' h hd' he =>
        refine ⟨hw, hsuf, by simp [hd], ?_, ?_, ?_, ?_⟩
        · intro i' q h'; rw [h] at h'; cases h'; exact ⟨rfl, rfl, hd', he⟩
        · intro _ h'; rw [h] at h'; cases h'
        · intro _ h'; rw [h] at h'; cases h'
        · intro _; have := hsuf.length_le; simp only [] at this ⊢; omega
      | @ended r' net' h he hd' =>
        refine ⟨hw, hsuf, by simp [hd], ?_, ?_, ?_, ?_⟩
        · intro i' q h'; rw [h] at h'; cases h'
        · intro _ _ _; exact ⟨rfl, hd'⟩
        · intro _ _ h'; rw [he] at h'; cases h'
        · intro _; have := hsuf.length_le; simp only [] at this ⊢; omega
      | @fail e r' net' h he =>
        refine ⟨hw, hsuf, by simp [hd], ?_, ?_, ?_, ?_⟩
        · intro i' q h'; rw [h] at h'; cases h'
        · intro _ _ h'; rw [he] at h'; cases h'
        · intro _ _ h'; rw [he] at h'; cases h'
        · intro _; have := hsuf.length_le; simp only [] at this ⊢; omega
      | @wait r' net' h hd' he hl' =>
        simp only []
        have hlen : net'.length + k ≤ ws.length := by simp only [List.length_cons] at hl; omega
        obtain ⟨p1, p2, p3, p4, p5, p6, p7⟩ := ih hs' hws hlen hd'
        refine ⟨p1, p2.trans hsuf, by simp [hd], ?_, ?_, ?_, p7⟩
        · intro i q hi
          rw [← h] at hi
          have := p4 i q hi
          rw [he] at this
          exact this
        · intro _ h1 h2; exact p5 hd' (h.trans h1) (he.trans h2)
        · intro _ h1 h2; exact p6 hd' (h.trans h1) (he.trans h2)
      | @stuck r' h h' hd' he =>
        simp only []
        obtain ⟨r2, q1, q2, q3⟩ := pollLoop_stuck ws hs' hws hd' h'
        rw [q1]
        refine ⟨by simp, by simp, by simp [hd], ?_, ?_, ?_, fun h => absurd rfl h⟩
        · intro i q hi; rw [h] at hi; cases hi
        · intro _ _ h2; rw [he] at h2; cases h2
        · intro _ _ _; exact ⟨rfl, q2, q3, rfl⟩

/-- The connections deliver the same items and end in the same way. -/
structure SameConn (c₁ c₂ : List Net) : Prop where
  noFail₁ : ∀ e, Net.fail e ∉ c₁
  noFail₂ : ∀ e, Net.fail e ∉ c₂
  items : itemsOf c₁ = itemsOf c₂
  ending : ending c₁ = ending c₂

/-- Lists of the same length with related elements. -/
inductive Pairs : List (List Net) → List (List Net) → Prop
  | nil : Pairs [] []
  | cons {a b l m} (h : SameConn a b) (t : Pairs l m) : Pairs (a :: l) (b :: m)

/-- Worlds that differ in how the bytes arrive. -/
structure NetTwin (n₁ n₂ : NetWorld) : Prop where
  world : n₁.world = n₂.world
  done : n₁.reader.done = n₂.reader.done
  rest : rest n₁.reader n₁.net = rest n₂.reader n₂.net
  ending : n₁.reader.done = false → ending n₁.net = ending n₂.net
  sound₁ : Sound n₁.reader n₁.net
  sound₂ : Sound n₂.reader n₂.net
  noFail₁ : ∀ e, Net.fail e ∉ n₁.net
  noFail₂ : ∀ e, Net.fail e ∉ n₂.net
  conns : Pairs n₁.conns n₂.conns

/-- The number of things that can still happen on the connections. -/
def events (n : NetWorld) : Nat := n.net.length + (n.conns.map List.length).sum

/-- Nobody interrupts a read. -/
structure Enough (n : NetWorld) : Prop where
  again : ∀ w ∈ n.waits, w = .again
  many : events n ≤ n.waits.length

/-- A step that is the same in both worlds. -/
def NetTwinRun {α : Type} (x : NetAct α) : Prop := ∀ n₁ n₂, NetTwin n₁ n₂ → Enough n₁ → Enough n₂ →
  (x n₁).1 = (x n₂).1 ∧ NetTwin (x n₁).2 (x n₂).2 ∧ (events (x n₁).2 ≤ events n₁ ∧ events (x n₂).2 ≤ events n₂) ∧
  ((x n₁).1 ≠ .error .dropped → Enough (x n₁).2 ∧ Enough (x n₂).2)

theorem NetTwinRun.pure {α : Type} (a : α) : NetTwinRun (Pure.pure a : NetAct α) := 
  fun _ _ h e₁ e₂ => ⟨rfl, h, ⟨Nat.le_refl _, Nat.le_refl _⟩, fun _ => ⟨e₁, e₂⟩⟩

theorem NetTwinRun.bind {α β : Type} {x : NetAct α} {f : α → NetAct β} (hx : NetTwinRun x) (hf : ∀ a, NetTwinRun (f a)) :
    NetTwinRun (x >>= f) := by
  intro n₁ n₂ h e₁ e₂
  obtain ⟨k1, k2, ⟨k4, k5⟩, k3⟩ := hx n₁ n₂ h e₁ e₂
  rw [net_bind, net_bind]
  generalize x n₁ = p₁ at *
  generalize x n₂ = p₂ at *
  obtain ⟨r₁, m₁⟩ := p₁
  obtain ⟨r₂, m₂⟩ := p₂
  simp only [] at k1 k2 k3 k4 k5
  subst k1
  rcases r₁ with e | a
  · refine ⟨rfl, k2, ⟨k4, k5⟩, fun hne => k3 fun h => hne ?_⟩
    cases h; rfl
  · obtain ⟨l1, l2, ⟨l4, l5⟩, l3⟩ := hf a m₁ m₂ k2 (k3 (by simp)).1 (k3 (by simp)).2
    exact ⟨l1, l2, ⟨Nat.le_trans l4 k4, Nat.le_trans l5 k5⟩, l3⟩

theorem NetTwinRun.timeout {α : Type} (d : Nat) {x : NetAct α} (hx : NetTwinRun x) : NetTwinRun (netTimeout d x) := by
  intro n₁ n₂ h e₁ e₂
  obtain ⟨k1, k2, ⟨k4, k5⟩, k3⟩ := hx n₁ n₂ h e₁ e₂
  have e1 : ∀ w, netTimeout d x w = match x w with
    | (.ok a, n') => (.ok (.ok a), n')
    | (.error (.elapsed 0), n') => (.ok (.error ()), n')
    | (.error (.elapsed (k + 1)), n') => (.error (.elapsed k), n')
    | (.error e, n') => (.error e, n') := fun _ => rfl
  rw [e1, e1]
  generalize x n₁ = p₁ at *
  generalize x n₂ = p₂ at *
  obtain ⟨r₁, m₁⟩ := p₁
  obtain ⟨r₂, m₂⟩ := p₂
  simp only [] at k1 k2 k3 k4 k5
  subst k1
  rcases r₁ with (_ | (_ | k) | f) | a
  · exact ⟨rfl, k2, ⟨k4, k5⟩, fun h => absurd rfl h⟩
  all_goals exact ⟨rfl, k2, ⟨k4, k5⟩, fun _ => k3 (by simp)⟩

theorem NetTwinRun.io {α : Type} (x : Act α) : NetTwinRun (io x) := by
  intro n₁ n₂ ⟨h1, h2, h3, h4, h5, h6, h7, h8, h9⟩ e₁ e₂
  rw [io_run, io_run, h1]
  exact ⟨rfl, ⟨rfl, h2, h3, h4, h5, h6, h7, h8, h9⟩, ⟨Nat.le_refl _, Nat.le_refl _⟩, fun _ => ⟨⟨e₁.1, e₁.2⟩, ⟨e₂.1, e₂.2⟩⟩⟩

theorem NetTwinRun.poll : NetTwinRun netPoll := by
  intro n₁ n₂ ⟨h1, h2, h3, h4, h5, h6, h7, h8, h9⟩ e₁ e₂
  rw [netPoll_run, netPoll_run]
  have p₁ := pollLoop_patient n₁.waits h5 e₁.again e₁.many
  have p₂ := pollLoop_patient n₂.waits h6 e₂.again e₂.many
  have s₁ := (pollLoop_takes n₁.waits h5).1
  have s₂ := (pollLoop_takes n₂.waits h6).1
  generalize pollLoop n₁.waits n₁.reader n₁.net = q₁ at *
  generalize pollLoop n₂.waits n₂.reader n₂.net = q₂ at *
  obtain ⟨r₁, rd₁, net₁, ws₁⟩ := q₁
  obtain ⟨r₂, rd₂, net₂, ws₂⟩ := q₂
  obtain ⟨a1, a2, a3, a4, a5, a6, a7⟩ := p₁
  obtain ⟨b1, b2, b3, b4, b5, b6, b7⟩ := p₂
  simp only [] at *
  have f₁ : ∀ e, Net.fail e ∉ net₁ := fun e he => h7 e (a2.subset he)
  have f₂ : ∀ e, Net.fail e ∉ net₂ := fun e he => h8 e (b2.subset he)
  have fin : r₁ = r₂ → rd₁.done = rd₂.done → Proofs.rest rd₁ net₁ = Proofs.rest rd₂ net₂ →
      (rd₁.done = false → Spec.ending net₁ = Spec.ending net₂) →
      r₁ = r₂ ∧ NetTwin { n₁ with reader := rd₁, net := net₁, waits := ws₁ } { n₂ with reader := rd₂, net := net₂, waits := ws₂ } ∧
      (events { n₁ with reader := rd₁, net := net₁, waits := ws₁ } ≤ events n₁ ∧
        events { n₂ with reader := rd₂, net := net₂, waits := ws₂ } ≤ events n₂) ∧
      (r₁ ≠ .error .dropped → Enough { n₁ with reader := rd₁, net := net₁, waits := ws₁ } ∧
        Enough { n₂ with reader := rd₂, net := net₂, waits := ws₂ }) :=
    fun g1 g2 g3 g4 => ⟨g1, ⟨h1, g2, g3, g4, s₁, s₂, f₁, f₂, h9⟩, ⟨Nat.add_le_add_right a2.length_le _, Nat.add_le_add_right b2.length_le _⟩,
      fun hne => ⟨⟨a1, a7 hne⟩, ⟨b1, b7 (g1 ▸ hne)⟩⟩⟩
  have doneRest : ∀ (rd : Reader) (net : List Net), rd.done = true → Proofs.rest rd net = [] := by
    intro rd net h; unfold Proofs.rest; rw [if_pos h]
  cases hd : n₁.reader.done with
  | true =>
    obtain ⟨x1, x2⟩ := a3 hd
    obtain ⟨y1, y2⟩ := b3 (h2 ▸ hd)
    exact fin (x1.trans y1.symm) (x2.trans y2.symm) (by rw [doneRest _ _ x2, doneRest _ _ y2]) (by simp [x2])
  | false =>
    have hd₂ : n₂.reader.done = false := h2 ▸ hd
    cases hr : Proofs.rest n₁.reader n₁.net with
    | cons i q =>
      obtain ⟨x1, x2, x3, x4⟩ := a4 i q hr
      obtain ⟨y1, y2, y3, y4⟩ := b4 i q (h3 ▸ hr)
      exact fin (x1.trans y1.symm) (x3.trans y3.symm) (x2.trans y2.symm) fun _ => by rw [x4, y4, h4 hd]
    | nil =>
      cases he : Spec.ending n₁.net with
      | open_ =>
        obtain ⟨x1, x2, x3, x4⟩ := a6 hd hr he
        obtain ⟨y1, y2, y3, y4⟩ := b6 hd₂ (h3 ▸ hr) (h4 hd ▸ he)
        exact fin (x1.trans y1.symm) (x2.trans y2.symm) (x3.trans y3.symm) fun _ => x4.trans y4.symm
      | closed =>
        obtain ⟨x1, x2⟩ := a5 hd hr he
        obtain ⟨y1, y2⟩ := b5 hd₂ (h3 ▸ hr) (h4 hd ▸ he)
        exact fin (x1.trans y1.symm) (x2.trans y2.symm) (by rw [doneRest _ _ x2, doneRest _ _ y2]) (by simp [x2])
      | failed e => exact absurd he (ending_noFail h7 e)

theorem NetTwinRun.readerNext : NetTwinRun netReaderNext := by
  unfold netReaderNext
  refine .bind .poll fun i => ?_
  rcases i with _ | (e | s)
  · exact .bind (.io _) fun _ => .pure _
  · exact .pure _
  · exact .bind (.io _) fun _ => .pure _

theorem staysFailed_noFail {c : List Net} (h : ∀ e, Net.fail e ∉ c) : StaysFailed c := by
  intro a e b hab
  exact absurd (hab ▸ by simp) (h e)

theorem NetTwinRun.newReader : NetTwinRun newReader := by
  intro n₁ n₂ ⟨h1, h2, h3, h4, h5, h6, h7, h8, h9⟩ ⟨e1, e2⟩ ⟨e3, e4⟩
  unfold Model.newReader
  have key : ∀ (n : NetWorld), (n.conns.head?.getD []).length + (n.conns.tail.map List.length).sum ≤ events n := by
    intro n
    unfold events
    cases hc : n.conns with
    | nil => simp
    | cons a l => simp
  refine ⟨rfl, ?_, ⟨key _, key _⟩, fun _ => ⟨⟨e1, Nat.le_trans (key _) e2⟩, ⟨e3, Nat.le_trans (key _) e4⟩⟩⟩
  · cases hc₁ : n₁.conns with
    | nil =>
      rw [hc₁] at h9
      cases hc₂ : n₂.conns with
      | cons a l => rw [hc₂] at h9; cases h9
      | nil =>
        refine ⟨h1, rfl, rfl, fun _ => rfl, ⟨fun _ => by simp [Reader.new], ?_⟩, ⟨fun _ => by simp [Reader.new], ?_⟩, ?_, ?_, .nil⟩
        · exact staysFailed_noFail (c := []) (by simp)
        · exact staysFailed_noFail (c := []) (by simp)
        · simp
        · simp
    | cons a l =>
      rw [hc₁] at h9
      cases hc₂ : n₂.conns with
      | nil => rw [hc₂] at h9; cases h9
      | cons b m =>
        rw [hc₂] at h9
        cases h9 with
        | cons hab t =>
          exact ⟨h1, rfl, hab.items, fun _ => hab.ending, ⟨fun _ => by simp [Reader.new], staysFailed_noFail hab.noFail₁⟩,
            ⟨fun _ => by simp [Reader.new], staysFailed_noFail hab.noFail₂⟩, hab.noFail₁, hab.noFail₂, t⟩

theorem NetTwinRun.recv (b : Build) : NetTwinRun (netRecv b) := by
  unfold netRecv
  refine .bind .readerNext fun i => ?_
  rcases i with _ | (e | s)
  · exact .pure _
  · exact .pure _
  · refine .bind (.io _) fun m => ?_
    cases m <;> exact .pure _

theorem NetTwinRun.recvReply (b : Build) : NetTwinRun (netRecvReply b) := by
  unfold netRecvReply
  refine .bind (.timeout _ (.recv b)) fun i => ?_
  rcases i with ⟨⟩ | (e | m) <;> exact .pure _

theorem NetTwinRun.awaitWelcome (b : Build) : NetTwinRun (netAwaitWelcome b) := by
  unfold netAwaitWelcome
  refine .bind (.recvReply b) fun i => ?_
  rcases i with e | m
  · exact .pure _
  refine .bind (.io _) fun i => ?_
  rcases i with _ | e
  rotate_left
  · exact .pure _
  refine .bind (.recvReply b) fun i => ?_
  rcases i with e | m
  · exact .pure _
  refine .bind (.io _) fun i => ?_
  cases i <;> exact .pure _

theorem NetTwinRun.handshake (b : Build) : NetTwinRun (netHandshake b) := by
  unfold netHandshake
  refine .bind (.io _) fun c => .bind (.io _) fun _ => .bind (.io _) fun r => ?_
  rcases r with e | ⟨⟩
  · exact .pure _
  refine .bind (.io _) fun r => ?_
  rcases r with e | ⟨⟩
  · exact .pure _
  exact .bind (.io _) fun _ => .awaitWelcome b

theorem NetTwinRun.useStream : NetTwinRun netUseStream := by
  unfold netUseStream
  exact .bind (.io _) fun _ => .bind .newReader fun _ => .io _

theorem NetTwinRun.connect (b : Build) (cfg : Config) : NetTwinRun (netConnect b cfg) := by
  unfold netConnect
  refine .bind (.io _) fun a => ?_
  cases a with
  | tlsLoaded =>
    refine .bind (.timeout _ (.io _)) fun r => ?_
    rcases r with ⟨⟩ | (e | ⟨⟩)
    · exact .pure _
    · exact .pure _
    · refine .bind (.io _) fun _ => .bind .newReader fun _ => .bind (.io _) fun _ => .bind (.timeout _ (.handshake b)) fun r => ?_
      rcases r with ⟨⟩ | r <;> exact .pure _
  | tlsFailed => exact .pure _
  | _ => exact .io _

theorem NetTwinRun.loop (b : Build) (cfg : Config) : ∀ (k : Nat) (tries : Option Nat) (d : Nat) (cause : ConnectError),
    NetTwinRun (netReconnectLoop b cfg k tries d cause)
  | 0, _, _, _ => .io _
  | k + 1, tries, d, cause => by
    rw [netReconnectLoop]
    by_cases ht : tries = some 0
    · rw [if_pos ht]; exact .pure _
    rw [if_neg ht]
    refine .bind (.io _) fun _ => .bind (.io _) fun d' => .bind (.timeout _ (.io _)) fun r => ?_
    rcases r with ⟨⟩ | (e | ⟨⟩)
    · exact .pure _
    · exact NetTwinRun.loop b cfg k _ _ _
    refine .bind .useStream fun _ => .bind (.timeout _ (.handshake b)) fun r => ?_
    rcases r with ⟨⟩ | (e | ⟨⟩)
    · exact .pure _
    · by_cases hr : e.shouldRetry = true
      · simp only [if_pos hr]; exact NetTwinRun.loop b cfg k _ _ _
      · simp only [if_neg hr]; exact .pure _
    · exact .pure _

theorem NetTwinRun.reconnect (b : Build) : NetTwinRun (netReconnect b) := by
  intro n₁ n₂ h e₁ e₂
  have := NetTwinRun.loop b n₁.world.client.config (n₁.world.script.length + 1) n₁.world.client.config.backoff.maxTries
    n₁.world.client.config.backoff.initialDelay .timeout n₁ n₂ h e₁ e₂
  unfold netReconnect
  rw [← h.world]
  exact this

end Tmi.Proofs
