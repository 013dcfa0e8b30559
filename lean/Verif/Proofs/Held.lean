/-
Lemmas: what the reader holds is the beginning of a line and the rest of a read.
-/
import Verif.Spec.Held
import Verif.Proofs.Net
import Verif.Proofs.LikeNew

namespace Tmi.Proofs
open Tmi.Model Tmi.Spec

variable {limit cap : Nat}

theorem noLongLine_suffix {a s : Bytes} (h : NoLongLine limit (a ++ s)) : NoLongLine limit s := by
  intro x l y he hl
  exact h (a ++ x) l y (by rw [he]; simp) hl

theorem noLongLine_nil : NoLongLine limit [] := by
  intro x l y he hl
  have := congrArg List.length he
  simp only [List.length_append, List.length_nil] at this
  omega

theorem noLongLine_short {s : Bytes} (h : s.length ≤ limit) : NoLongLine limit s := by
  intro x l y he _
  rw [he] at h
  simp at h
  omega

/-- Line by line. -/
theorem noLongLine_cons {a c : Bytes} (ha : NoLongLine limit a) (hc : NoLongLine limit c) :
    NoLongLine limit (a ++ LF :: c) := by
  intro x l y he hl
  rw [List.append_assoc, List.append_eq_append_iff] at he
  rcases he with ⟨m, h1, h2⟩ | ⟨m, h1, h2⟩
  · -- `l` starts after `a`
    cases m with
    | nil =>
      cases l with
      | nil => simp
      | cons z l =>
        simp only [List.nil_append, List.cons_append, List.cons.injEq] at h2
        rw [h2.1] at hl
        simp at hl
    | cons z m =>
      simp only [List.cons_append, List.cons.injEq] at h2
      exact hc m l y (by rw [h2.2]; simp) hl
  · -- `l` starts in `a`
    rw [List.append_eq_append_iff] at h2
    rcases h2 with ⟨m', h3, h4⟩ | ⟨m', h3, h4⟩
    · exact ha x l m' (by rw [h1, h3]; simp) hl
    · cases m' with
      | nil => exact ha x l [] (by rw [h1, h3]; simp) hl
      | cons z m' =>
        simp only [List.cons_append, List.cons.injEq] at h4
        rw [h3, ← h4.1] at hl
        simp at hl

/-- What holds of the reader between polls. -/
structure Stowed (limit cap : Nat) (r : Reader) (net : List Net) : Prop where
  line : LF ∉ r.bytes
  read : r.avail.length ≤ cap
  reads : SmallReads cap net
  short : NoLongLine limit (r.bytes ++ r.avail ++ allBytes net)

theorem Stowed.held {r : Reader} {net : List Net} (h : Stowed limit cap r net) : held r ≤ limit + cap := by
  have := h.short [] r.bytes (r.avail ++ allBytes net) (by simp) h.line
  have := h.read
  unfold Spec.held
  omega

/-- What holds of the reader when `read_until` has returned: the line may be whole. -/
structure StowedRest (limit cap : Nat) (r : Reader) (net : List Net) : Prop where
  read : r.avail.length ≤ cap
  reads : SmallReads cap net
  short : NoLongLine limit (r.avail ++ allBytes net)

theorem smallReads_tail {a : Net} {net : List Net} (h : SmallReads cap (a :: net)) : SmallReads cap net :=
  fun bs hb => h bs (List.mem_cons_of_mem _ hb)

theorem Stowed.rest {r : Reader} {net : List Net} (h : Stowed limit cap r net) : StowedRest limit cap r net :=
  ⟨h.read, h.reads, by have := h.short; rw [List.append_assoc] at this; exact noLongLine_suffix this⟩

theorem StowedRest.keeps {r : Reader} {net : List Net} (h : StowedRest limit cap r net) (hb : r.bytes = []) :
    Stowed limit cap r net := ⟨by simp [hb], h.read, h.reads, by rw [hb]; exact h.short⟩

theorem StowedRest.clear {r : Reader} {net : List Net} (h : StowedRest limit cap r net) :
    Stowed limit cap { r with bytes := [] } net := ⟨by simp, h.read, h.reads, h.short⟩

/-- `Stowed` when the poll has to wait, and `StowedRest` when it is done. -/
def KeptBy {α : Type} (limit cap : Nat) (p : Polled α) : Prop :=
  match p.out with
  | .pending => Stowed limit cap p.reader p.net
  | .ready _ => StowedRest limit cap p.reader p.net

theorem scan_keeps {r : Reader} {net : List Net} (h : Stowed limit cap r net) :
    match r.scan with
    | (true, r') => StowedRest limit cap r' net
    | (false, r') => Stowed limit cap r' net ∧ r'.avail = [] := by
  unfold Reader.scan
  cases hf : r.avail.findIdx? (· == LF) with
  | some i =>
    refine ⟨Nat.le_trans (by simp) h.read, h.reads, ?_⟩
    have := h.short
    rw [← List.take_append_drop (i + 1) r.avail, List.append_assoc, List.append_assoc, ← List.append_assoc] at this
    exact noLongLine_suffix this
  | none =>
    have hn : LF ∉ r.avail := by
      rw [List.findIdx?_eq_none_iff] at hf
      intro hm
      have := hf LF hm
      simp at this
    refine ⟨⟨?_, by simp, h.reads, ?_⟩, rfl⟩
    · simp [h.line, hn]
    · simpa using h.short

theorem readUntilEmpty_keeps : ∀ (net : List Net) (r : Reader), r.avail = [] → Stowed limit cap r net →
    KeptBy limit cap (r.readUntilEmpty net)
  | [], r, _, h => by simpa [Reader.readUntilEmpty, KeptBy] using h
  | .pending :: net, r, _, h => by
    simp only [Reader.readUntilEmpty, KeptBy]
    exact ⟨h.line, h.read, (smallReads_tail h.reads), h.short⟩
  | .fail e :: net, r, _, h => by
    simp only [Reader.readUntilEmpty, KeptBy]
    exact Stowed.rest ⟨h.line, h.read, (smallReads_tail h.reads), h.short⟩
  | .eof :: net, r, _, h => by
    simp only [Reader.readUntilEmpty, KeptBy]
    exact h.rest
  | .data bs :: net, r, ha, h => by
    rw [Reader.readUntilEmpty]
    have h' : Stowed limit cap { r with avail := bs } net := by
      refine ⟨h.line, h.reads bs (List.mem_cons_self ..), (smallReads_tail h.reads), ?_⟩
      have := h.short
      rw [ha] at this
      simpa [allBytes] using this
    have := scan_keeps h'
    rcases hs : ({ r with avail := bs } : Reader).scan with ⟨f, r'⟩
    rw [hs] at this
    cases f with
    | true => exact this
    | false => exact readUntilEmpty_keeps net r' this.2 this.1

theorem readUntil_keeps {r : Reader} {net : List Net} (h : Stowed limit cap r net) : KeptBy limit cap (r.readUntil net) := by
  unfold Reader.readUntil
  split
  · exact readUntilEmpty_keeps net r ‹_› h
  · have := scan_keeps h
    rcases hs : r.scan with ⟨f, r'⟩
    rw [hs] at this
    cases f with
    | true => exact this
    | false => exact readUntilEmpty_keeps net r' this.2 this.1

theorem nextLine_keeps {r : Reader} {net : List Net} (h : Stowed limit cap r net) :
    Stowed limit cap (r.nextLine net).reader (r.nextLine net).net := by
  have := readUntil_keeps h
  unfold Reader.nextLine
  rcases hr : r.readUntil net with ⟨out, r', net'⟩
  rw [hr] at this
  cases out with
  | pending => exact this
  | ready x =>
    cases x with
    | error e => exact this.clear
    | ok u =>
      simp only
      split
      · exact this.clear
      · split
        · exact this.keeps ‹_›
        · exact this.clear

theorem poll_keeps {r : Reader} {net : List Net} (h : Stowed limit cap r net) :
    Stowed limit cap (r.poll net).reader (r.poll net).net := by
  unfold Reader.poll
  split
  · exact h
  · have := nextLine_keeps h
    rcases hr : r.nextLine net with ⟨out, r', net'⟩
    rw [hr] at this
    cases out with
    | pending => exact this
    | ready x =>
      cases x with
      | error e => exact this
      | ok o =>
        cases o with
        | none => exact ⟨this.line, this.read, this.reads, this.short⟩
        | some l => exact this

theorem pollLoop_keeps : ∀ (waits : List Wait) (r : Reader) (net : List Net), Stowed limit cap r net →
    Stowed limit cap (pollLoop waits r net).2.1 (pollLoop waits r net).2.2.1
  | [], r, net, h => by
    have := poll_keeps h
    unfold pollLoop
    rcases hr : r.poll net with ⟨out, r', net'⟩
    rw [hr] at this
    cases out <;> exact this
  | w :: waits, r, net, h => by
    have := poll_keeps h
    unfold pollLoop
    rcases hr : r.poll net with ⟨out, r', net'⟩
    rw [hr] at this
    cases out with
    | ready i => exact this
    | pending =>
      cases w with
      | again => exact pollLoop_keeps waits r' net' this
      | elapsed k => exact this
      | dropped => exact this

/-! ### Calls -/

/-- What holds of the world. -/
def Tidy (limit cap : Nat) (n : NetWorld) : Prop :=
  Stowed limit cap n.reader n.net ∧ ∀ c ∈ n.conns, NoLongLine limit (allBytes c) ∧ SmallReads cap c

/-- `x` leaves a tidy world tidy. -/
def StaysTidy {α : Type} (limit cap : Nat) (x : NetAct α) : Prop := ∀ n, Tidy limit cap n → Tidy limit cap (x n).2

variable {α β : Type}

theorem StaysTidy.pure (a : α) : StaysTidy limit cap (Pure.pure a : NetAct α) := fun _ h => h

theorem StaysTidy.bind {x : NetAct α} {f : α → NetAct β} (hx : StaysTidy limit cap x) (hf : ∀ a, StaysTidy limit cap (f a)) :
    StaysTidy limit cap (x >>= f) := by
  intro n hn
  have := hx n hn
  rw [net_bind]
  rcases hr : x n with ⟨r, n'⟩
  rw [hr] at this
  cases r with
  | error e => exact this
  | ok a => exact hf a n' this

theorem StaysTidy.io (x : Act α) : StaysTidy limit cap (io x) := fun _ h => h

theorem StaysTidy.timeout {x : NetAct α} (d : Nat) (hx : StaysTidy limit cap x) : StaysTidy limit cap (netTimeout d x) := by
  intro n hn
  have := hx n hn
  unfold netTimeout
  rcases hr : x n with ⟨r, n'⟩
  rw [hr] at this
  cases r with
  | ok a => exact this
  | error e =>
    cases e with
    | elapsed k => cases k <;> exact this
    | dropped => exact this
    | panic f => exact this

theorem StaysTidy.netPoll : StaysTidy limit cap netPoll := by
  intro n hn
  exact ⟨pollLoop_keeps n.waits n.reader n.net hn.1, hn.2⟩

theorem StaysTidy.newReader : StaysTidy limit cap newReader := by
  intro n hn
  refine ⟨?_, fun c hc => hn.2 c (List.mem_of_mem_tail hc)⟩
  show Stowed limit cap .new (n.conns.head?.getD [])
  cases hc : n.conns with
  | nil => exact ⟨by simp [Reader.new], by simp [Reader.new], fun bs h => by simp at h, by simpa [Reader.new, allBytes] using noLongLine_nil⟩
  | cons c cs =>
    obtain ⟨h1, h2⟩ := hn.2 c (by rw [hc]; exact List.mem_cons_self ..)
    exact ⟨by simp [Reader.new], by simp [Reader.new], h2, by simpa [Reader.new] using h1⟩

theorem StaysTidy.readerNext : StaysTidy limit cap netReaderNext := by
  unfold netReaderNext
  refine .bind .netPoll fun r => ?_
  split
  · exact .bind (.io _) fun _ => .pure _
  · exact .pure _
  · exact .bind (.io _) fun _ => .pure _

theorem StaysTidy.recv (b : Build) : StaysTidy limit cap (netRecv b) := by
  unfold netRecv
  refine .bind .readerNext fun r => ?_
  split
  · refine .bind (.io _) fun m => ?_
    split <;> exact .pure _
  · exact .pure _
  · exact .pure _

theorem StaysTidy.recvReply (b : Build) : StaysTidy limit cap (netRecvReply b) := by
  unfold netRecvReply
  refine .bind (.timeout _ (.recv b)) fun r => ?_
  split <;> exact .pure _

theorem StaysTidy.awaitWelcome (b : Build) : StaysTidy limit cap (netAwaitWelcome b) := by
  unfold netAwaitWelcome
  refine .bind (.recvReply b) fun r => ?_
  split
  · exact .pure _
  · refine .bind (.io _) fun r => ?_
    split
    · exact .pure _
    · refine .bind (.recvReply b) fun r => ?_
      split
      · exact .pure _
      · refine .bind (.io _) fun r => ?_
        split <;> exact .pure _

theorem StaysTidy.handshake (b : Build) : StaysTidy limit cap (netHandshake b) := by
  unfold netHandshake
  refine .bind (.io _) fun c => .bind (.io _) fun _ => .bind (.io _) fun r => ?_
  split
  · exact .pure _
  · refine .bind (.io _) fun r => ?_
    split
    · exact .pure _
    · exact .bind (.io _) fun _ => .awaitWelcome b

theorem StaysTidy.connect (b : Build) (cfg : Config) : StaysTidy limit cap (netConnect b cfg) := by
  unfold netConnect
  refine .bind (.io _) fun a => ?_
  split
  · refine .bind (.timeout _ (.io _)) fun r => ?_
    split
    · exact .pure _
    · exact .pure _
    · refine .bind (.io _) fun _ => .bind .newReader fun _ => .bind (.io _) fun _ => .bind (.timeout _ (.handshake b)) fun r => ?_
      split <;> exact .pure _
  · exact .pure _
  · exact .io _

theorem StaysTidy.reconnectLoop (b : Build) (cfg : Config) : ∀ (fuel : Nat) (tries : Option Nat) (delay : Nat)
    (cause : ConnectError), StaysTidy limit cap (netReconnectLoop b cfg fuel tries delay cause)
  | 0, _, _, _ => .io _
  | fuel + 1, tries, delay, cause => by
    rw [netReconnectLoop]
    split
    · exact .pure _
    · refine .bind (.io _) fun _ => .bind (.io _) fun d => .bind (.timeout _ (.io _)) fun r => ?_
      split
      · exact .pure _
      · exact StaysTidy.reconnectLoop b cfg fuel _ _ _
      · refine .bind (.bind (.io _) fun _ => .bind .newReader fun _ => .io _) fun _ => .bind (.timeout _ (.handshake b)) fun r => ?_
        split
        · exact .pure _
        · split
          · exact StaysTidy.reconnectLoop b cfg fuel _ _ _
          · exact .pure _
        · exact .pure _

theorem op_tidy (op : Op) (n : NetWorld) (h : Tidy limit cap n) : Tidy limit cap (op.net n).2 := by
  cases op with
  | send c => exact StaysTidy.io _ n h
  | recv b => exact StaysTidy.recv b n h
  | reconnect b => exact StaysTidy.reconnectLoop b _ _ _ _ _ n h

theorem outcomes_tidy : ∀ (calls : List NetCall) (n : NetWorld), Tidy limit cap n → Tidy limit cap (netOutcomes calls n).2
  | [], n, h => h
  | c :: rest, n, h => by
    rw [netOutcomes]
    exact outcomes_tidy rest _ (op_tidy c.op { n with world := { n.world with script := c.answers }, waits := c.waits } h)

theorem session_tidy (b : Build) (cfg : Config) (answers : List Answer) (waits : List Wait) (calls : List NetCall)
    (conns : List (List Net)) (h : ∀ c ∈ conns, NoLongLine limit (allBytes c) ∧ SmallReads cap c) :
    Tidy limit cap (netSession b cfg answers waits calls conns).2.2 := by
  unfold netSession
  have := StaysTidy.connect (limit := limit) (cap := cap) b cfg ⟨⟨⟨false, [], cfg⟩, [], answers⟩, .new, [], conns, waits⟩
    ⟨⟨by simp [Reader.new], by simp [Reader.new], fun bs h => by simp at h, by simpa [Reader.new, allBytes] using noLongLine_nil⟩, h⟩
  split
  · rename_i n hn
    rw [hn] at this
    exact outcomes_tidy calls n this
  · rename_i r n _ hn
    rw [hn] at this
    exact this

end Tmi.Proofs
