/-
Lemmas about the reader: an invariant relates its buffers to the bytes that have arrived.
-/
import Verif.Spec.Lines
import Verif.Proofs.Sending
import Verif.Proofs.Escape

namespace Tmi.Proofs
open Tmi.Model Tmi.Spec

theorem isUtf8_iff (s : Bytes) : isUtf8 s = true ↔ Utf8 s := by
  unfold isUtf8
  rw [beq_iff_eq]
  constructor
  · intro h; exact ⟨decode s, h.symm⟩
  · rintro ⟨cs, rfl⟩
    have := decode_enc cs
    unfold enc at this ⊢
    rw [this]

/-- The text that the reader has still to deliver. -/
def text (r : Reader) (net : List Net) : Bytes := r.bytes ++ r.avail ++ arrived net

/-- How `read_until` can end. -/
inductive Until (r : Reader) (net : List Net) : Polled (Except IoError Unit) → Prop
  | found {r' : Reader} {net' : List Net} (a : Bytes) (h : r'.bytes = a ++ [LF]) (ha : LF ∉ a)
      (ht : text r net = a ++ LF :: (r'.avail ++ arrived net')) (he : ending net' = ending net)
      (hl : net'.length ≤ net.length) (hd : r'.done = r.done) : Until r net ⟨.ready (.ok ()), r', net'⟩
  | eof {r' : Reader} {net' : List Net} (h : r'.bytes = text r net) (ha : LF ∉ text r net) (hv : r'.avail = [])
      (he : ending net = .closed) (hd : r'.done = r.done) : Until r net ⟨.ready (.ok ()), r', .eof :: net'⟩
  | fail {r' : Reader} {net' : List Net} (e : IoError) (ha : LF ∉ text r net) (he : ending net = .failed e)
      (hv : r'.avail = []) (hs : Net.fail e :: net' <:+ net)
      (hd : r'.done = r.done) : Until r net ⟨.ready (.error e), r', net'⟩
  | wait {r' : Reader} {net' : List Net} (ht : text r' net' = text r net) (h : LF ∉ r'.bytes)
      (he : ending net' = ending net) (hl : net'.length < net.length) (hd : r'.done = r.done) :
      Until r net ⟨.pending, r', net'⟩
  | stuck {r' : Reader} (ht : r'.bytes = text r net) (h : LF ∉ text r net) (hv : r'.avail = [])
      (he : ending net = .open_) (hd : r'.done = r.done) : Until r net ⟨.pending, r', []⟩

theorem scan_cases (r : Reader) (hr : LF ∉ r.bytes) :
    (∃ a b, LF ∉ a ∧ r.bytes ++ r.avail = a ++ LF :: b ∧ r.scan = (true, { r with bytes := a ++ [LF], avail := b })) ∨
    (LF ∉ r.bytes ++ r.avail ∧ r.scan = (false, { r with bytes := r.bytes ++ r.avail, avail := [] })) := by
  unfold Reader.scan
  cases h : r.avail.findIdx? (· == LF) with
  | none =>
    right
    rw [List.findIdx?_eq_none_iff] at h
    refine ⟨?_, rfl⟩
    simp only [List.mem_append, not_or]
    exact ⟨hr, fun hm => by have := h _ hm; simp at this⟩
  | some i =>
    left
    rw [List.findIdx?_eq_some_iff_getElem] at h
    obtain ⟨hi, hx, hlt⟩ := h
    have hx : r.avail[i] = LF := by simpa using hx
    have e : r.avail.take (i + 1) = r.avail.take i ++ [LF] := by
      rw [List.take_succ_eq_append_getElem hi, hx]
    refine ⟨r.bytes ++ r.avail.take i, r.avail.drop (i + 1), ?_, ?_, ?_⟩
    · simp only [List.mem_append, not_or]
      refine ⟨hr, fun hm => ?_⟩
      obtain ⟨j, hj, hjx⟩ := List.mem_iff_getElem.1 hm
      simp at hjx
      rw [List.length_take] at hj
      have := hlt j (Nat.lt_of_lt_of_le hj (Nat.min_le_left _ _))
      simp [hjx] at this
    · have : r.avail = r.avail.take i ++ LF :: r.avail.drop (i + 1) := by
        have h0 := (List.take_append_drop (i + 1) r.avail).symm
        rw [e] at h0
        simpa using h0
      rw [List.append_assoc, ← this]
    · simp only []
      rw [e, List.append_assoc]

theorem until_empty (r : Reader) (net : List Net) (hr : LF ∉ r.bytes) (hv : r.avail = []) :
    Until r net (r.readUntilEmpty net) := by
  induction net generalizing r with
  | nil =>
    rw [Reader.readUntilEmpty]
    exact .stuck (by simp [text, hv, arrived]) (by simpa [text, hv, arrived] using hr) hv rfl rfl
  | cons x net ih =>
    cases x with
    | pending =>
      rw [Reader.readUntilEmpty]
      exact .wait rfl hr rfl (by simp) rfl
    | fail e =>
      rw [Reader.readUntilEmpty]
      exact .fail e (by simpa [text, hv, arrived] using hr) rfl hv (List.suffix_refl _) rfl
    | eof =>
      rw [Reader.readUntilEmpty]
      exact .eof (by simp [text, hv, arrived]) (by simpa [text, hv, arrived] using hr) hv rfl rfl
    | data bs =>
      rw [Reader.readUntilEmpty]
      have ht : text r (.data bs :: net) = r.bytes ++ bs ++ arrived net := by
        simp [text, hv, arrived]
      rcases scan_cases { r with avail := bs } hr with ⟨a, b, h1, h2, h3⟩ | ⟨h1, h2⟩
      · rw [h3]
        refine .found a rfl h1 ?_ rfl (by simp) rfl
        simp only [] at h2 ⊢
        rw [ht, h2]; simp
      · rw [h2]
        simp only [] at h1 ⊢
        have := ih { r with bytes := r.bytes ++ bs, avail := [] } h1 rfl
        have e : text { r with bytes := r.bytes ++ bs, avail := [] } net = text r (.data bs :: net) := by
          rw [ht]; simp [text]
        generalize hp : Reader.readUntilEmpty { r with bytes := r.bytes ++ bs, avail := [] } net = p at this ⊢
        cases this with
        | found a g1 g2 g3 g4 g5 g6 => exact .found a g1 g2 (e ▸ g3) g4 (by simp; omega) g6
        | eof g1 g2 g3 g4 g5 => exact .eof (e ▸ g1) (e ▸ g2) g3 g4 g5
        | fail x g1 g2 g3 g4 g5 => exact .fail x (e ▸ g1) g2 g3 (g4.trans (List.suffix_cons _ _)) g5
        | wait g1 g2 g3 g4 g5 => exact .wait (e ▸ g1) g2 g3 (by simp; omega) g5
        | stuck g1 g2 g3 g4 g5 => exact .stuck (e ▸ g1) (e ▸ g2) g3 g4 g5

theorem until_cases (r : Reader) (net : List Net) (hr : LF ∉ r.bytes) : Until r net (r.readUntil net) := by
  unfold Reader.readUntil
  by_cases hv : r.avail = []
  · rw [if_pos hv]; exact until_empty r net hr hv
  · rw [if_neg hv]
    rcases scan_cases r hr with ⟨a, b, h1, h2, h3⟩ | ⟨h1, h2⟩
    · rw [h3]
      refine .found a rfl h1 ?_ rfl (Nat.le_refl _) rfl
      simp only [text]; rw [h2]; simp
    · rw [h2]
      simp only []
      have := until_empty { r with bytes := r.bytes ++ r.avail, avail := [] } net h1 rfl
      have e : text { r with bytes := r.bytes ++ r.avail, avail := [] } net = text r net := by simp [text]
      generalize hp : Reader.readUntilEmpty { r with bytes := r.bytes ++ r.avail, avail := [] } net = p at this ⊢
      cases this with
      | found a g1 g2 g3 g4 g5 g6 => exact .found a g1 g2 (e ▸ g3) g4 g5 g6
      | eof g1 g2 g3 g4 g5 => exact .eof (e ▸ g1) (e ▸ g2) g3 g4 g5
      | fail x g1 g2 g3 g4 g5 => exact .fail x (e ▸ g1) g2 g3 g4 g5
      | wait g1 g2 g3 g4 g5 => exact .wait (e ▸ g1) g2 g3 g4 g5
      | stuck g1 g2 g3 g4 g5 => exact .stuck (e ▸ g1) (e ▸ g2) g3 g4 g5

/-! ### Lines of a text -/

theorem delivered_line {a : Bytes} (b : Bytes) (ha : LF ∉ a) :
    delivered (a ++ LF :: b) = deliver (stripCR a) :: delivered b ∧ unterminated (a ++ LF :: b) = unterminated b := by
  unfold delivered unterminated receivedLines
  rw [fields_some b ha]
  rw [List.dropLast_cons_of_ne_nil (fields_ne_nil _ _), List.map_cons, List.map_cons]
  refine ⟨rfl, ?_⟩
  rw [List.getLast?_cons]
  cases h : (fields LF b).getLast? with
  | none => simp at h; exact absurd h (fields_ne_nil _ _)
  | some x => simp

theorem delivered_rest {a : Bytes} (ha : LF ∉ a) : delivered a = [] ∧ unterminated a = a := by
  unfold delivered unterminated receivedLines
  rw [fields_none ha]
  simp

theorem deliveredAll_line {a : Bytes} (b : Bytes) (ha : LF ∉ a) :
    deliveredAll (a ++ LF :: b) = deliver (stripCR a) :: deliveredAll b := by
  unfold deliveredAll
  rw [(delivered_line b ha).1, (delivered_line b ha).2]
  simp

theorem stripCR_cases (a : Bytes) : (∃ c, a = c ++ [CR] ∧ stripCR a = c) ∨ stripCR a = a := by
  unfold stripCR
  split
  · rename_i h
    left
    refine ⟨a.dropLast, ?_, rfl⟩
    obtain ⟨c, rfl⟩ := List.getLast?_eq_some_iff.1 h
    simp
  · exact .inr rfl

theorem chomp_line (a : Bytes) : chomp (a ++ [LF]) = stripCR a := by
  unfold chomp stripCR
  simp

theorem chomp_rest {a : Bytes} (h : LF ∉ a) : chomp a = a := by
  unfold chomp
  rw [if_neg]
  intro hl
  obtain ⟨c, rfl⟩ := List.getLast?_eq_some_iff.1 hl
  simp at h

theorem utf8_snoc {a : Bytes} {x : UInt8} (hx : x < 0x80) : Utf8 (a ++ [x]) ↔ Utf8 a :=
  ⟨fun h => Utf8.left hx h, fun h => h.append (.cons hx .nil)⟩

theorem utf8_stripCR (a : Bytes) : Utf8 (stripCR a) ↔ Utf8 a := by
  rcases stripCR_cases a with ⟨c, rfl, h⟩ | h
  · rw [h, utf8_snoc (by decide)]
  · rw [h]

/-! ### One poll -/

/-- How a poll can end. -/
inductive Step (r : Reader) (net : List Net) : Polled (Option (Except IoError Bytes)) → Prop
  | line {r' : Reader} {net' : List Net} (a : Bytes) (ha : LF ∉ a) (hb : LF ∉ r'.bytes) (hd : r'.done = false)
      (ht : text r net = a ++ LF :: text r' net') (he : ending net' = ending net) (hl : net'.length ≤ net.length) :
      Step r net ⟨.ready (some (deliver (stripCR a))), r', net'⟩
  | last {r' : Reader} {net' : List Net} (ha : LF ∉ text r net) (hne : text r net ≠ [])
      (hr' : r' = Reader.new) (he : ending net = .closed) :
      Step r net ⟨.ready (some (deliver (text r net))), r', .eof :: net'⟩
  | ended {r' : Reader} {net' : List Net} (ha : text r net = []) (he : ending net = .closed) (hd : r'.done = true) :
      Step r net ⟨.ready none, r', net'⟩
  | fail {r' : Reader} {net' : List Net} (e : IoError) (ha : LF ∉ text r net) (he : ending net = .failed e)
      (hr' : r' = Reader.new) (hs : Net.fail e :: net' <:+ net) :
      Step r net ⟨.ready (some (.error e)), r', net'⟩
  | wait {r' : Reader} {net' : List Net} (ht : text r' net' = text r net) (h : LF ∉ r'.bytes)
      (he : ending net' = ending net) (hl : net'.length < net.length) (hd : r'.done = false) :
      Step r net ⟨.pending, r', net'⟩
  | stuck {r' : Reader} (ht : r'.bytes = text r net) (h : LF ∉ text r net) (hv : r'.avail = [])
      (he : ending net = .open_) (hd : r'.done = false) : Step r net ⟨.pending, r', []⟩

theorem step_cases (r : Reader) (net : List Net) (hr : LF ∉ r.bytes) (hd : r.done = false) :
    Step r net (r.poll net) := by
  unfold Reader.poll
  rw [if_neg (by simp [hd])]
  unfold Reader.nextLine
  have h := until_cases r net hr
  generalize r.readUntil net = p at h ⊢
  cases h with
  | @found r' net' a g1 g2 g3 g4 g5 g6 =>
    simp only [g1]
    have ht : text r net = a ++ LF :: text { r' with bytes := [] } net' := by rw [g3]; simp [text]
    by_cases hu : Utf8 a
    · have hu' : isUtf8 (a ++ [LF]) = true := (isUtf8_iff _).2 ((utf8_snoc (by decide)).2 hu)
      simp only [hu', not_true_eq_false, if_false]
      rw [if_neg (by simp)]
      have e : (some (.ok (chomp (a ++ [LF]))) : Option (Except IoError Bytes)) = some (deliver (stripCR a)) := by
        unfold deliver
        rw [if_pos ((utf8_stripCR a).2 hu), chomp_line]
      simp only [e]
      exact .line a g2 (by simp) (by simp [g6, hd]) ht g4 g5
    · have hu' : isUtf8 (a ++ [LF]) = false := by
        rw [← Bool.not_eq_true, isUtf8_iff, utf8_snoc (by decide)]; exact hu
      simp only [hu']
      rw [if_pos (by simp)]
      have e : (some (.error notUtf8) : Option (Except IoError Bytes)) = some (deliver (stripCR a)) := by
        unfold deliver
        rw [if_neg (fun h => hu ((utf8_stripCR a).1 h))]; rfl
      simp only [e]
      exact .line a g2 (by simp) (by simp [g6, hd]) ht g4 g5
  | @eof r' net' g1 g2 g3 g4 g5 =>
    simp only [g1]
    have hnew : ({ r' with bytes := [] } : Reader) = Reader.new := by
      cases r'; simp only [Reader.new] at *; simp [g3, g5, hd]
    by_cases hu : Utf8 (text r net)
    · have hu' : isUtf8 (text r net) = true := (isUtf8_iff _).2 hu
      simp only [hu', not_true_eq_false, if_false]
      by_cases hn : text r net = []
      · rw [if_pos hn]
        exact .ended hn g4 rfl
      · rw [if_neg hn]
        have e : (some (.ok (chomp (text r net))) : Option (Except IoError Bytes)) = some (deliver (text r net)) := by
          unfold deliver
          rw [if_pos hu, chomp_rest g2]
        simp only [e]
        exact .last g2 hn hnew g4
    · have hu' : isUtf8 (text r net) = false := by
        rw [← Bool.not_eq_true, isUtf8_iff]; exact hu
      simp only [hu']
      rw [if_pos (by simp)]
      have e : (some (.error notUtf8) : Option (Except IoError Bytes)) = some (deliver (text r net)) := by
        unfold deliver
        rw [if_neg hu]; rfl
      simp only [e]
      exact .last g2 (fun h => hu (h ▸ .nil)) hnew g4
  | @fail r' net' e g1 g2 g3 g4 g5 =>
    exact .fail e g1 g2 (by cases r'; simp only [Reader.new] at *; simp [g3, g5, hd]) g4
  | wait g1 g2 g3 g4 g5 => exact .wait g1 g2 g3 g4 (g5.trans hd)
  | stuck g1 g2 g3 g4 g5 => exact .stuck g1 g2 g3 g4 (g5.trans hd)

/-! ### Many polls -/

theorem pollMany_done {r : Reader} (net : List Net) (h : r.done = true) :
    ∀ n, pollMany n r net = List.replicate n none
  | 0 => rfl
  | n + 1 => by
    have : r.poll net = ⟨.ready none, r, net⟩ := by unfold Reader.poll; rw [if_pos h]
    rw [pollMany, this]
    simp only []
    rw [pollMany_done net h n]; rfl

/-- Polling more often adds items at the end. -/
theorem pollMany_mono (r : Reader) (net : List Net) (n m : Nat) (h : n ≤ m) : pollMany n r net <+: pollMany m r net := by
  induction n generalizing r net m with
  | zero => exact List.nil_prefix
  | succ n ih =>
    cases m with
    | zero => omega
    | succ m =>
      rw [pollMany, pollMany]
      generalize r.poll net = p
      obtain ⟨out, r', net'⟩ := p
      cases out with
      | pending => exact ih r' net' m (by omega)
      | ready i => exact List.cons_prefix_cons.2 ⟨rfl, ih r' net' m (by omega)⟩

theorem pollMany_stuck {r : Reader} (hb : LF ∉ r.bytes) (hv : r.avail = []) (hd : r.done = false) :
    ∀ n, pollMany n r [] = []
  | 0 => rfl
  | n + 1 => by
    have : r.poll [] = ⟨.pending, r, []⟩ := by
      unfold Reader.poll Reader.nextLine Reader.readUntil
      rw [if_neg (by simp [hd]), if_pos hv, Reader.readUntilEmpty]
    rw [pollMany, this]
    exact pollMany_stuck hb hv hd n

theorem pollMany_open (r : Reader) (net : List Net) (hr : LF ∉ r.bytes) (hd : r.done = false)
    (he : ending net = .open_) :
    ∃ N, ∀ k, pollMany (N + k) r net = (delivered (text r net)).map some := by
  generalize hm : net.length + (text r net).length = m
  induction m using Nat.strongRecOn generalizing r net with
  | ind m ih =>
    have hs := step_cases r net hr hd
    generalize hp : r.poll net = p at hs
    cases hs with
    | @line r' net' a ha hb hd' ht he' hl =>
      obtain ⟨N, hN⟩ := ih (net'.length + (text r' net').length) (by rw [ht] at hm; simp at hm; omega) r' net' hb hd'
        (he'.trans he) rfl
      refine ⟨N + 1, fun k => ?_⟩
      rw [show N + 1 + k = (N + k) + 1 by omega, pollMany, hp]
      simp only []
      rw [hN, ht, (delivered_line _ ha).1]; rfl
    | last ha hne hr' he' => rw [he] at he'; cases he'
    | ended ha he' hd' => rw [he] at he'; cases he'
    | fail e ha he' _ _ => rw [he] at he'; cases he'
    | @wait r' net' ht h he' hl hd' =>
      obtain ⟨N, hN⟩ := ih (net'.length + (text r' net').length) (by rw [ht]; omega) r' net' h hd' (he'.trans he) rfl
      refine ⟨N + 1, fun k => ?_⟩
      rw [show N + 1 + k = (N + k) + 1 by omega, pollMany, hp]
      simp only []
      rw [hN, ht]
    | @stuck r' ht h hv he' hd' =>
      refine ⟨1, fun k => ?_⟩
      rw [show 1 + k = k + 1 by omega, pollMany, hp]
      simp only []
      rw [pollMany_stuck (by rw [ht]; exact h) hv hd', (delivered_rest h).1]; rfl

theorem pollMany_closed (r : Reader) (net : List Net) (hr : LF ∉ r.bytes) (hd : r.done = false)
    (he : ending net = .closed) :
    ∃ N, ∀ k, pollMany (N + k) r net = (deliveredAll (text r net)).map some ++ List.replicate k none := by
  generalize hm : net.length + (text r net).length = m
  induction m using Nat.strongRecOn generalizing r net with
  | ind m ih =>
    have hs := step_cases r net hr hd
    generalize hp : r.poll net = p at hs
    cases hs with
    | @line r' net' a ha hb hd' ht he' hl =>
      obtain ⟨N, hN⟩ := ih (net'.length + (text r' net').length) (by rw [ht] at hm; simp at hm; omega) r' net' hb hd'
        (he'.trans he) rfl
      refine ⟨N + 1, fun k => ?_⟩
      rw [show N + 1 + k = (N + k) + 1 by omega, pollMany, hp]
      simp only []
      rw [hN, ht, deliveredAll_line _ ha]; rfl
    | @last r' net' ha hne hr' he' =>
      refine ⟨1, fun k => ?_⟩
      rw [show 1 + k = k + 1 by omega, pollMany, hp]
      simp only []
      have e : deliveredAll (text r net) = [deliver (text r net)] := by
        unfold deliveredAll
        rw [(delivered_rest ha).1, (delivered_rest ha).2, if_neg hne]; rfl
      rw [e, hr']
      have hk : pollMany k Reader.new (.eof :: net') = List.replicate k none := by
        cases k with
        | zero => rfl
        | succ k =>
          have : Reader.new.poll (.eof :: net') = ⟨.ready none, { Reader.new with done := true }, .eof :: net'⟩ := rfl
          rw [pollMany, this]
          simp only []
          rw [pollMany_done _ rfl]; rfl
      rw [hk]; rfl
    | @ended r' net' ha he' hd' =>
      refine ⟨0, fun k => ?_⟩
      have e : deliveredAll (text r net) = [] := by
        rw [ha]
        unfold deliveredAll
        rw [(delivered_rest (by simp)).1, (delivered_rest (by simp)).2, if_pos rfl]; rfl
      rw [e]
      simp only [Nat.zero_add, List.map_nil, List.nil_append]
      cases k with
      | zero => rfl
      | succ k =>
        rw [pollMany, hp]
        simp only []
        rw [pollMany_done _ hd']; rfl
    | fail e ha he' _ _ => rw [he] at he'; cases he'
    | @wait r' net' ht h he' hl hd' =>
      obtain ⟨N, hN⟩ := ih (net'.length + (text r' net').length) (by rw [ht]; omega) r' net' h hd' (he'.trans he) rfl
      refine ⟨N + 1, fun k => ?_⟩
      rw [show N + 1 + k = (N + k) + 1 by omega, pollMany, hp]
      simp only []
      rw [hN, ht]
    | @stuck r' ht h hv he' hd' => rw [he] at he'; cases he'

theorem pollMany_failed (r : Reader) (net : List Net) (hr : LF ∉ r.bytes) (hd : r.done = false) (e : IoError)
    (he : ending net = .failed e) :
    ∃ N, pollMany N r net = (delivered (text r net)).map some ++ [some (.error e)] := by
  generalize hm : net.length + (text r net).length = m
  induction m using Nat.strongRecOn generalizing r net with
  | ind m ih =>
    have hs := step_cases r net hr hd
    generalize hp : r.poll net = p at hs
    cases hs with
    | @line r' net' a ha hb hd' ht he' hl =>
      obtain ⟨N, hN⟩ := ih (net'.length + (text r' net').length) (by rw [ht] at hm; simp at hm; omega) r' net' hb hd'
        (he'.trans he) rfl
      refine ⟨N + 1, ?_⟩
      rw [pollMany, hp]
      simp only []
      rw [hN, ht, (delivered_line _ ha).1]; rfl
    | last ha hne hr' he' => rw [he] at he'; cases he'
    | ended ha he' hd' => rw [he] at he'; cases he'
    | @fail r' net' e' ha he' _ _ =>
      rw [he] at he'
      cases he'
      refine ⟨1, ?_⟩
      rw [pollMany, hp, (delivered_rest ha).1]; rfl
    | @wait r' net' ht h he' hl hd' =>
      obtain ⟨N, hN⟩ := ih (net'.length + (text r' net').length) (by rw [ht]; omega) r' net' h hd' (he'.trans he) rfl
      refine ⟨N + 1, ?_⟩
      rw [pollMany, hp]
      simp only []
      rw [hN, ht]
    | @stuck r' ht h hv he' hd' => rw [he] at he'; cases he'

theorem text_new (net : List Net) : text Reader.new net = arrived net := rfl

theorem recvPolls_eq (b : Build) (n : Nat) (r : Reader) (net : List Net) :
    recvPolls b n r net = (pollMany n r net).map (recvItem b) := by
  induction n generalizing r net with
  | zero => rfl
  | succ n ih =>
    rw [recvPolls, pollMany]
    unfold recvPoll
    generalize r.poll net = p
    obtain ⟨out, r', net'⟩ := p
    cases out with
    | pending => exact ih r' net'
    | ready i => simp only [List.map_cons, ih]

end Tmi.Proofs
