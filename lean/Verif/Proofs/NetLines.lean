import Verif.Proofs.Net

/-! Which lines are taken from which connection. -/

namespace Tmi.Proofs
open Tmi.Model Tmi.Spec

/-! ### The items of a connection -/

/-- What is still to be delivered. -/
noncomputable def rest (r : Reader) (net : List Net) : List (Except IoError Bytes) :=
  if r.done = true then [] else if ending net = .closed then deliveredAll (text r net) else delivered (text r net)

/-- The reader is inside a line, and the connection behaves. -/
structure Sound (r : Reader) (net : List Net) : Prop where
  inside : r.done = false → LF ∉ r.bytes
  stays : StaysFailed net

theorem staysFailed_suffix {net net' : List Net} (h : StaysFailed net) (hs : net' <:+ net) : StaysFailed net' := by
  obtain ⟨a, rfl⟩ := hs
  intro before e after hn
  exact h (a ++ before) e after (by rw [hn]; simp)

theorem readUntilEmpty_suffix (r : Reader) (net : List Net) : (r.readUntilEmpty net).net <:+ net := by
  induction net generalizing r with
  | nil => exact List.suffix_refl _
  | cons x net ih =>
    cases x with
    | data bs =>
      rw [Reader.readUntilEmpty]
      generalize ({ r with avail := bs } : Reader).scan = p
      obtain ⟨f, r2⟩ := p
      cases f
      · exact (ih r2).trans (List.suffix_cons _ _)
      · exact List.suffix_cons _ _
    | eof => exact List.suffix_refl _
    | _ => exact List.suffix_cons _ _

theorem readUntil_suffix (r : Reader) (net : List Net) : (r.readUntil net).net <:+ net := by
  unfold Reader.readUntil
  split
  · exact readUntilEmpty_suffix r net
  · generalize r.scan = p
    obtain ⟨f, r2⟩ := p
    cases f
    · exact readUntilEmpty_suffix r2 net
    · exact List.suffix_refl _

theorem poll_suffix (r : Reader) (net : List Net) : (r.poll net).net <:+ net := by
  unfold Reader.poll
  split
  · exact List.suffix_refl _
  · unfold Reader.nextLine
    have h := readUntil_suffix r net
    generalize r.readUntil net = p at h
    obtain ⟨o, r2, net2⟩ := p
    simp only [] at h
    rcases o with (e | ⟨⟩) | _
    · exact h
    · simp only []
      by_cases h1 : isUtf8 r2.bytes = true
      · by_cases h2 : r2.bytes = []
        · rw [h2] at h1; simp [h1, h2, h]
        · simp [h1, h2, h]
      · simp [h1, h]
    · exact h

theorem failed_silent {net : List Net} (h : ∀ x ∈ net, x = .pending ∨ ∃ e, x = .fail e) :
    arrived net = [] ∧ ending net ≠ .closed := by
  induction net with
  | nil => exact ⟨rfl, by simp [ending]⟩
  | cons x net ih =>
    rcases h x List.mem_cons_self with rfl | ⟨e, rfl⟩
    · exact ih fun x hx => h x (List.mem_cons_of_mem _ hx)
    · exact ⟨rfl, by simp [ending]⟩

theorem itemsOf_new (net : List Net) : rest .new net = itemsOf net := rfl

theorem deliveredAll_nil : deliveredAll [] = [] := by
  unfold deliveredAll
  rw [(delivered_rest (a := []) (by simp)).1, (delivered_rest (a := []) (by simp)).2]
  rfl

theorem delivered_nil : delivered [] = [] := (delivered_rest (a := []) (by simp)).1

/-- What a poll does to what is still to be delivered. -/
inductive Takes (items : List (Except IoError Bytes)) :
    Poll (Option (Except IoError Bytes)) → List (Except IoError Bytes) → Prop
  | item {i items'} (h : items = i :: items') : Takes items (.ready (some i)) items'
  | fail {e} (h : items = []) : Takes items (.ready (some (.error e))) []
  | none (h : items = []) : Takes items (.ready none) []
  | wait : Takes items .pending items

theorem poll_takes {r : Reader} {net : List Net} (hs : Sound r net) :
    Sound (r.poll net).reader (r.poll net).net ∧ Takes (rest r net) (r.poll net).out (rest (r.poll net).reader (r.poll net).net) := by
  have hst := staysFailed_suffix hs.stays (poll_suffix r net)
  cases hd : r.done with
  | true =>
    have : r.poll net = ⟨.ready none, r, net⟩ := by unfold Reader.poll; rw [if_pos hd]
    rw [this]
    refine ⟨hs, ?_⟩
    have hr : rest r net = [] := by unfold rest; rw [if_pos hd]
    rw [hr]
    exact .none rfl
  | false =>
    have h := step_cases r net (hs.inside hd) hd
    generalize r.poll net = p at h hst
    unfold rest
    rw [hd]
    simp only [Bool.false_eq_true, if_false]
    cases h with
    | line a ha hb hd' ht he hl =>
      refine ⟨⟨fun _ => hb, hst⟩, ?_⟩
      simp only [hd', he, Bool.false_eq_true, if_false]
      split
      · exact .item (by rw [ht, deliveredAll_line _ ha])
      · exact .item (by rw [ht, (delivered_line _ ha).1])
    | @last r' net' ha hne hr' he =>
      subst hr'
      refine ⟨⟨fun _ => by simp [Reader.new], hst⟩, ?_⟩
      rw [if_pos he]
      have e1 : deliveredAll (text r net) = [deliver (text r net)] := by
        unfold deliveredAll
        rw [(delivered_rest ha).1, (delivered_rest ha).2, if_neg hne]; rfl
      rw [e1]
      refine .item ?_
      simp only [text_new]
      rw [if_neg (by simp [Reader.new]), if_pos (by rfl), arrived.eq_3 _ (by simp) (by simp), deliveredAll_nil]
    | ended ha he hd' =>
      refine ⟨⟨fun h => by simp [hd'] at h, hst⟩, ?_⟩
      rw [if_pos he, ha, deliveredAll_nil]
      simp only [hd', if_true]
      exact .none rfl
    | @fail r' net' e ha he hr' hsuf =>
      subst hr'
      refine ⟨⟨fun _ => by simp [Reader.new], hst⟩, ?_⟩
      rw [he, if_neg (by simp), (delivered_rest ha).1]
      obtain ⟨pre, hpre⟩ := hsuf
      obtain ⟨q1, q2⟩ := failed_silent (hs.stays pre e net' hpre.symm)
      simp only [text_new]
      rw [if_neg q2, q1, delivered_nil]
      simp only [ite_self]
      exact .fail rfl
    | wait ht hb he hl hd' =>
      refine ⟨⟨fun _ => hb, hst⟩, ?_⟩
      simp only [hd', he, ht, Bool.false_eq_true, if_false]
      exact .wait
    | @stuck r' ht h hv he hd' =>
      refine ⟨⟨fun _ => by rw [ht]; exact h, hst⟩, ?_⟩
      simp only [hd', he, Bool.false_eq_true, if_false]
      rw [if_neg (by simp), if_neg (by simp [ending])]
      have : text r' [] = text r net := by simp [text, ht, hv, arrived]
      rw [this]
      exact .wait

/-- What waiting for an item does to what is still to be delivered. -/
inductive TakesLoop (items : List (Except IoError Bytes)) :
    Except Stop (Option (Except IoError Bytes)) → List (Except IoError Bytes) → Prop
  | item {i items'} (h : items = i :: items') : TakesLoop items (.ok (some i)) items'
  | fail {e} (h : items = []) : TakesLoop items (.ok (some (.error e))) []
  | none (h : items = []) : TakesLoop items (.ok none) []
  | stop {e} : TakesLoop items (.error e) items

theorem pollLoop_takes (ws : List Wait) {r : Reader} {net : List Net} (hs : Sound r net) :
    Sound (pollLoop ws r net).2.1 (pollLoop ws r net).2.2.1 ∧
    TakesLoop (rest r net) (pollLoop ws r net).1 (rest (pollLoop ws r net).2.1 (pollLoop ws r net).2.2.1) := by
  induction ws generalizing r net with
  | nil =>
    obtain ⟨h1, h2⟩ := poll_takes hs
    rw [pollLoop]
    generalize r.poll net = p at *
    obtain ⟨o, r2, net2⟩ := p
    simp only [] at h1 h2
    generalize hq : rest r2 net2 = q at h2
    cases h2 with
    | item h => exact ⟨h1, by rw [← hq] at h; exact .item h⟩
    | fail h => exact ⟨h1, by simp only []; rw [hq]; exact .fail h⟩
    | none h => exact ⟨h1, by simp only []; rw [hq]; exact .none h⟩
    | wait => exact ⟨h1, by simp only []; rw [hq]; exact .stop⟩
  | cons w ws ih =>
    obtain ⟨h1, h2⟩ := poll_takes hs
    rw [pollLoop]
    generalize r.poll net = p at *
    obtain ⟨o, r2, net2⟩ := p
    simp only [] at h1 h2
    generalize hq : rest r2 net2 = q at h2
    cases h2 with
    | item h => exact ⟨h1, by rw [← hq] at h; exact .item h⟩
    | fail h => exact ⟨h1, by simp only []; rw [hq]; exact .fail h⟩
    | none h => exact ⟨h1, by simp only []; rw [hq]; exact .none h⟩
    | wait =>
      cases w with
      | again => simp only []; rw [← hq]; exact ih h1
      | elapsed k => exact ⟨h1, by simp only []; rw [hq]; exact .stop⟩
      | dropped => exact ⟨h1, by simp only []; rw [hq]; exact .stop⟩

/-! ### Lines taken, by connection -/

theorem connections_append (a b : List Effect) : connections (a ++ b) = connections a + connections b := by
  simp [connections]

theorem takenOn_append (k : Nat) (a b : List Effect) :
    takenOn k (a ++ b) = if connections a ≤ k then takenOn k a ++ takenOn (k - connections a) b else takenOn k a := by
  induction a generalizing k with
  | nil => simp [connections, takenOn]
  | cons e a ih =>
    by_cases he : e = .connected
    · subst he
      have hc : connections (.connected :: a) = connections a + 1 := by simp [connections]
      cases k with
      | zero => rw [List.cons_append, takenOn, takenOn, if_neg (by omega)]
      | succ k =>
        rw [List.cons_append, takenOn, ih, takenOn, hc]
        by_cases h : connections a ≤ k
        · rw [if_pos h, if_pos (by omega)]
          congr 2; omega
        · rw [if_neg h, if_neg (by omega)]
    · have hc : connections (e :: a) = connections a := by simp [connections, he]
      rw [hc]
      by_cases hk : k = 0 ∧ ∃ s, e = .took s
      · obtain ⟨rfl, s, rfl⟩ := hk
        rw [List.cons_append, takenOn, takenOn, ih]
        split <;> simp
      · have h1 : ∀ l, takenOn k (e :: l) = takenOn k l := by
          intro l
          cases k with
          | zero => cases e <;> first | rfl | exact absurd ⟨rfl, _, rfl⟩ hk | exact absurd rfl he
          | succ k => cases e <;> first | rfl | exact absurd rfl he
        rw [List.cons_append, h1, h1, ih]

theorem connections_quiet {ev : List Effect} (h : ∀ e ∈ ev, Quiet e) : connections ev = 0 := by
  unfold connections
  rw [List.filter_eq_nil_iff.2]
  · rfl
  · intro e he
    simp only [beq_iff_eq]
    exact (h e he).1

theorem takenOn_quiet {ev : List Effect} (h : ∀ e ∈ ev, Quiet e) (k : Nat) : takenOn k ev = [] := by
  induction ev with
  | nil => rw [takenOn]
  | cons e ev ih =>
    have hq := h e List.mem_cons_self
    have := ih fun e he => h e (List.mem_cons_of_mem _ he)
    cases e with
    | connected => exact absurd rfl hq.1
    | took s => exact absurd rfl (hq.2 s)
    | _ => cases k <;> exact this

/-- The lines taken from each connection are lines that arrived on it, in order and without gaps. -/
structure Inv (conns : List (List Net)) (n : NetWorld) : Prop where
  started : 0 < connections n.world.log
  left : n.conns = conns.drop (connections n.world.log)
  before : takenOn 0 n.world.log = []
  old : ∀ j, takenOn (j + 1) n.world.log <+: texts (itemsOf (conns.getD j []))
  sound : Sound n.reader n.net
  now : ∃ seen, seen ++ rest n.reader n.net = itemsOf (conns.getD (connections n.world.log - 1) []) ∧
    texts seen = takenOn (connections n.world.log) n.world.log

/-- A step that keeps the invariant. -/
def KeepsInv {α : Type} (conns : List (List Net)) (x : NetAct α) : Prop := ∀ n, Inv conns n → Inv conns (x n).2

theorem KeepsInv.pure {α : Type} {conns : List (List Net)} (a : α) : KeepsInv conns (Pure.pure a : NetAct α) := fun _ h => h

theorem KeepsInv.bind {α β : Type} {conns : List (List Net)} {x : NetAct α} {f : α → NetAct β} (hx : KeepsInv conns x)
    (hf : ∀ a, KeepsInv conns (f a)) : KeepsInv conns (x >>= f) := by
  intro n hn
  have h := hx n hn
  rw [net_bind]
  generalize x n = p at *
  obtain ⟨_ | a, n2⟩ := p
  · exact h
  · exact hf a n2 h

theorem KeepsInv.timeout {α : Type} {conns : List (List Net)} (d : Nat) {x : NetAct α} (hx : KeepsInv conns x) :
    KeepsInv conns (netTimeout d x) := by
  intro n hn
  rw [netTimeout_snd]
  exact hx n hn

theorem Inv.quiet {conns : List (List Net)} {n : NetWorld} (h : Inv conns n) {w : World} {ev : List Effect}
    (hl : w.log = n.world.log ++ ev) (hq : ∀ e ∈ ev, Quiet e) : Inv conns { n with world := w } := by
  have e1 : connections w.log = connections n.world.log := by
    rw [hl, connections_append, connections_quiet hq, Nat.add_zero]
  have e2 : ∀ k, takenOn k w.log = takenOn k n.world.log := by
    intro k
    rw [hl, takenOn_append, takenOn_quiet hq]
    simp
  obtain ⟨h1, h2, h3, h4, h5, h6⟩ := h
  refine ⟨?_, ?_, ?_, ?_, h5, ?_⟩
  · rw [e1]; exact h1
  · rw [e1]; exact h2
  · rw [e2]; exact h3
  · intro j; rw [e2]; exact h4 j
  · rw [e1, e2]; exact h6

theorem KeepsInv.io {α : Type} {conns : List (List Net)} {x : Act α} (h : ∀ w, Local x w) : KeepsInv conns (io x) := by
  intro n hn
  obtain ⟨ev, hl, hq⟩ := (h n.world).quiet
  exact hn.quiet hl hq

theorem texts_append (a b : List (Except IoError Bytes)) : texts (a ++ b) = texts a ++ texts b := by
  simp [texts]

theorem KeepsInv.readerNext {conns : List (List Net)} : KeepsInv conns netReaderNext := by
  intro n hn
  obtain ⟨h1, h2, h3, h4, h5, seen, h6, h7⟩ := hn
  have e0 : netReaderNext n = match netPoll n with
      | (.ok (some (.ok s)), n) => (.ok (some (.ok s)), { n with world := { n.world with log := n.world.log ++ [.took s] } })
      | (.ok (some (.error e)), n) => (.ok (some (.error e)), n)
      | (.ok none, n) => (.ok none, { n with world := { n.world with client := { n.world.client with closed := true } } })
      | (.error e, n) => (.error e, n) := by
    unfold netReaderNext
    rw [net_bind]
    generalize netPoll n = p
    obtain ⟨(e | (_ | (e | s))), n2⟩ := p <;> rfl
  rw [netPoll_run] at e0
  obtain ⟨k1, k2⟩ := pollLoop_takes n.waits h5
  generalize pollLoop n.waits n.reader n.net = p at *
  obtain ⟨r, r2, net2, ws2⟩ := p
  simp only [] at e0 k1 k2
  generalize hq : rest r2 net2 = q at k2
  cases k2 with
  | stop =>
    rw [e0]
    exact ⟨h1, h2, h3, h4, k1, seen, by simp only []; rw [hq]; exact h6, h7⟩
  | none h =>
    rw [e0]
    exact ⟨h1, h2, h3, h4, k1, seen, by simp only []; rw [hq, ← h]; exact h6, h7⟩
  | fail h =>
    rw [e0]
    exact ⟨h1, h2, h3, h4, k1, seen, by simp only []; rw [hq, ← h]; exact h6, h7⟩
  | @item i _ h =>
    cases i with
    | error e =>
      rw [e0]
      refine ⟨h1, h2, h3, h4, k1, seen ++ [.error e], ?_, ?_⟩
      · simp only []; rw [hq, List.append_assoc, ← h6, h]; rfl
      · rw [texts_append, h7]; simp [texts]
    | ok s =>
      rw [e0]
      have hc : connections (n.world.log ++ [Effect.took s]) = connections n.world.log := by
        rw [connections_append]; rfl
      have ht : ∀ k, takenOn k (n.world.log ++ [.took s]) =
          if k = connections n.world.log then takenOn k n.world.log ++ [s] else takenOn k n.world.log := by
        intro k
        rw [takenOn_append]
        by_cases hk : k = connections n.world.log
        · subst hk; simp [takenOn]
        · rw [if_neg hk]
          by_cases hle : connections n.world.log ≤ k
          · rw [if_pos hle]
            obtain ⟨d, hd⟩ : ∃ d, k - connections n.world.log = d + 1 := ⟨k - connections n.world.log - 1, by omega⟩
            rw [hd]; simp [takenOn]
          · rw [if_neg hle]
      have hseen : (seen ++ [.ok s]) ++ q = itemsOf (conns.getD (connections n.world.log - 1) []) := by
        rw [← h6, h]; simp
      have htext : texts (seen ++ [.ok s]) = takenOn (connections n.world.log) n.world.log ++ [s] := by
        rw [texts_append, h7]; simp [texts]
      refine ⟨?_, ?_, ?_, ?_, k1, seen ++ [.ok s], ?_, ?_⟩
      · simp only [hc]; exact h1
      · simp only [hc]; exact h2
      · simp only [ht]; rw [if_neg (by omega)]; exact h3
      · intro j
        simp only [ht]
        by_cases hj : j + 1 = connections n.world.log
        · rw [if_pos hj, hj, ← htext]
          have : j = connections n.world.log - 1 := by omega
          rw [this, ← hseen, texts_append _ q]
          exact List.prefix_append _ _
        · rw [if_neg hj]; exact h4 j
      · simp only [hc, hq]; exact hseen
      · simp only [hc, ht, if_true]; exact htext

theorem KeepsInv.recv {conns : List (List Net)} (b : Build) : KeepsInv conns (netRecv b) := by
  unfold netRecv
  refine .bind .readerNext fun i => ?_
  rcases i with _ | (e | s)
  · exact .pure _
  · exact .pure _
  · refine .bind (.io (.lift _)) fun m => ?_
    cases m <;> exact .pure _

theorem KeepsInv.recvReply {conns : List (List Net)} (b : Build) : KeepsInv conns (netRecvReply b) := by
  unfold netRecvReply
  refine .bind (.timeout _ (.recv b)) fun i => ?_
  rcases i with ⟨⟩ | (e | m) <;> exact .pure _

theorem KeepsInv.awaitWelcome {conns : List (List Net)} (b : Build) : KeepsInv conns (netAwaitWelcome b) := by
  unfold netAwaitWelcome
  refine .bind (.recvReply b) fun i => ?_
  rcases i with e | m
  · exact .pure _
  refine .bind (.io (.lift _)) fun i => ?_
  rcases i with _ | e
  rotate_left
  · exact .pure _
  refine .bind (.recvReply b) fun i => ?_
  rcases i with e | m
  · exact .pure _
  refine .bind (.io (.lift _)) fun i => ?_
  cases i <;> exact .pure _

theorem KeepsInv.handshake {conns : List (List Net)} (b : Build) : KeepsInv conns (netHandshake b) := by
  unfold netHandshake
  refine .bind (.io .getClient) fun c => .bind (.io (.setScratch _)) fun _ => .bind (.io (.writeAll _)) fun r => ?_
  rcases r with e | ⟨⟩
  · exact .pure _
  refine .bind (.io .flush) fun r => ?_
  rcases r with e | ⟨⟩
  · exact .pure _
  exact .bind (.io (.setScratch _)) fun _ => .awaitWelcome b

theorem takenOn_beyond (k : Nat) (log : List Effect) (h : connections log < k) : takenOn k log = [] := by
  induction log generalizing k with
  | nil => rw [takenOn]
  | cons e log ih =>
    cases k with
    | zero => omega
    | succ k =>
      cases e with
      | connected =>
        have : connections (.connected :: log) = connections log + 1 := by simp [connections]
        exact ih k (by omega)
      | _ =>
        refine ih (k + 1) ?_
        simpa [connections] using h

/-- The part of the invariant that does not need a connection. -/
structure Pre (conns : List (List Net)) (n : NetWorld) : Prop where
  left : n.conns = conns.drop (connections n.world.log)
  before : takenOn 0 n.world.log = []
  old : ∀ j, takenOn (j + 1) n.world.log <+: texts (itemsOf (conns.getD j []))

theorem Inv.pre {conns : List (List Net)} {n : NetWorld} (h : Inv conns n) : Pre conns n := ⟨h.left, h.before, h.old⟩

theorem staysFailed_getD {conns : List (List Net)} (h : ∀ c ∈ conns, StaysFailed c) (k : Nat) :
    StaysFailed (conns.getD k []) := by
  by_cases hk : k < conns.length
  · rw [List.getD_eq_getElem?_getD, List.getElem?_eq_getElem hk]; exact h _ (List.getElem_mem _)
  · rw [List.getD_eq_getElem?_getD, List.getElem?_eq_none (by omega)]
    intro a e b hab; simp at hab

/-- A new connection. -/
theorem Pre.fresh {conns : List (List Net)} (hf : ∀ c ∈ conns, StaysFailed c) {n : NetWorld} (h : Pre conns n)
    (c : Client) :
    Inv conns { n with world := { n.world with client := c, log := n.world.log ++ [.connected] },
                       reader := .new, net := n.conns.head?.getD [], conns := n.conns.tail } := by
  obtain ⟨h1, h2, h3⟩ := h
  have hc : connections (n.world.log ++ [.connected]) = connections n.world.log + 1 := by
    rw [connections_append]; rfl
  have ht : ∀ k, takenOn k (n.world.log ++ [.connected]) = takenOn k n.world.log := by
    intro k
    rw [takenOn_append]
    split
    · have : takenOn (k - connections n.world.log) [.connected] = [] := by
        generalize k - connections n.world.log = d
        cases d <;> rfl
      rw [this, List.append_nil]
    · rfl
  have hnet : n.conns.head?.getD [] = conns.getD (connections n.world.log) [] := by
    rw [h1, List.getD_eq_getElem?_getD, List.head?_drop]
  refine ⟨?_, ?_, ?_, ?_, ⟨fun _ => by simp [Reader.new], ?_⟩, [], ?_, ?_⟩
  · simp only [hc]; omega
  · simp only [hc, h1]
    rw [List.tail_drop]
  · simp only [ht]; exact h2
  · intro j; simp only [ht]; exact h3 j
  · simp only [hnet]; exact staysFailed_getD hf _
  · simp only [hc, hnet, itemsOf_new, List.nil_append, Nat.add_sub_cancel]
  · simp only [hc, ht]
    rw [takenOn_beyond _ _ (Nat.lt_succ_self _)]; rfl

theorem KeepsInv.useStream {conns : List (List Net)} (hf : ∀ c ∈ conns, StaysFailed c) : KeepsInv conns netUseStream :=
  fun n hn => hn.pre.fresh hf { n.world.client with closed := false }

theorem KeepsInv.loop {conns : List (List Net)} (hf : ∀ c ∈ conns, StaysFailed c) (b : Build) (cfg : Config) :
    ∀ (k : Nat) (tries : Option Nat) (d : Nat) (cause : ConnectError),
      KeepsInv conns (netReconnectLoop b cfg k tries d cause)
  | 0, _, _, _ => .io (.stop _)
  | k + 1, tries, d, cause => by
    rw [netReconnectLoop]
    by_cases ht : tries = some 0
    · rw [if_pos ht]; exact .pure _
    rw [if_neg ht]
    refine .bind (.io (.sleep d)) fun _ => .bind (.io (.lift _)) fun d' => .bind (.timeout _ (.io .openStream)) fun r => ?_
    rcases r with ⟨⟩ | (e | ⟨⟩)
    · exact .pure _
    · exact KeepsInv.loop hf b cfg k _ _ _
    refine .bind (.useStream hf) fun _ => .bind (.timeout _ (.handshake b)) fun r => ?_
    rcases r with ⟨⟩ | (e | ⟨⟩)
    · exact .pure _
    · by_cases hr : e.shouldRetry = true
      · simp only [if_pos hr]; exact KeepsInv.loop hf b cfg k _ _ _
      · simp only [if_neg hr]; exact .pure _
    · exact .pure _

theorem KeepsInv.reconnect {conns : List (List Net)} (hf : ∀ c ∈ conns, StaysFailed c) (b : Build) :
    KeepsInv conns (netReconnect b) := fun n hn => KeepsInv.loop hf b _ _ _ _ _ n hn

theorem inv_op {conns : List (List Net)} (hf : ∀ c ∈ conns, StaysFailed c) (op : Op) {n : NetWorld} (hn : Inv conns n) :
    Inv conns (op.net n).2 := by
  cases op with
  | send c => exact KeepsInv.io (.send c) n hn
  | recv b => exact KeepsInv.recv b n hn
  | reconnect b => exact KeepsInv.reconnect hf b n hn

theorem inv_outcomes {conns : List (List Net)} (hf : ∀ c ∈ conns, StaysFailed c) (calls : List NetCall) {n : NetWorld}
    (hn : Inv conns n) : Inv conns (netOutcomes calls n).2 := by
  induction calls generalizing n with
  | nil => exact hn
  | cons c rest ih =>
    exact ih (inv_op hf c.op (n := { n with world := { n.world with script := c.answers }, waits := c.waits })
      (hn.quiet (w := { n.world with script := c.answers }) (ev := []) (by simp) (by simp) |> fun h => ⟨h.1, h.2, h.3, h.4, h.5, h.6⟩))

theorem Pre.quiet {conns : List (List Net)} {n : NetWorld} (h : Pre conns n) {w : World} {ev : List Effect}
    (hl : w.log = n.world.log ++ ev) (hq : ∀ e ∈ ev, Quiet e) : Pre conns { n with world := w } := by
  have e1 : connections w.log = connections n.world.log := by
    rw [hl, connections_append, connections_quiet hq, Nat.add_zero]
  have e2 : ∀ k, takenOn k w.log = takenOn k n.world.log := by
    intro k
    rw [hl, takenOn_append, takenOn_quiet hq]
    simp
  obtain ⟨h1, h2, h3⟩ := h
  exact ⟨by rw [e1]; exact h1, by rw [e2]; exact h2, fun j => by rw [e2]; exact h3 j⟩

/-- `connect`: nothing was taken before there was a connection, and if it succeeds there is one. -/
theorem connect_inv {conns : List (List Net)} (hf : ∀ c ∈ conns, StaysFailed c) (b : Build) (cfg : Config)
    {n : NetWorld} (hn : Pre conns n) :
    Pre conns (netConnect b cfg n).2 ∧ ((netConnect b cfg n).1 = .ok (.ok ()) → Inv conns (netConnect b cfg n).2) := by
  have bindP : ∀ {α : Type} {x : NetAct α} {f : α → NetAct (Except ConnectError Unit)} {n : NetWorld},
      Pre conns (x n).2 → (∀ a n, Pre conns n → Pre conns (f a n).2 ∧ ((f a n).1 = .ok (.ok ()) → Inv conns (f a n).2)) →
      Pre conns ((x >>= f) n).2 ∧ (((x >>= f) n).1 = .ok (.ok ()) → Inv conns ((x >>= f) n).2) := by
    intro α x f n h hf
    rw [net_bind]
    generalize x n = p at *
    obtain ⟨_ | a, w⟩ := p
    · exact ⟨h, fun h => by cases h⟩
    · exact hf a _ h
  have local' : ∀ {α : Type} {x : Act α} {n : NetWorld}, Local x n.world → Pre conns n → Pre conns (io x n).2 := by
    intro α x n h hn
    obtain ⟨ev, h1, h2⟩ := h.quiet
    exact hn.quiet h1 h2
  unfold netConnect
  refine bindP (local' (.next _) hn) fun a n hn => ?_
  cases a with
  | tlsLoaded =>
    refine bindP (by rw [netTimeout_snd]; exact local' (.openStream _) hn) fun r n hn => ?_
    rcases r with ⟨⟩ | (e | ⟨⟩)
    · exact ⟨hn, fun h => by cases h⟩
    · exact ⟨hn, fun h => by cases h⟩
    have h := hn.fresh hf ⟨false, [], cfg⟩
    have k : KeepsInv conns (do
        match ← netTimeout cfg.timeout (netHandshake b) with
        | .error () => return .error .timeout
        | .ok r => return r : NetAct (Except ConnectError Unit)) := by
      refine .bind (.timeout _ (.handshake b)) fun r => ?_
      rcases r with ⟨⟩ | r <;> exact .pure _
    have := k _ h
    exact ⟨this.pre, fun _ => this⟩
  | tlsFailed => exact ⟨hn, fun h => by cases h⟩
  | _ => exact ⟨hn, fun h => by cases h⟩

end Tmi.Proofs
