/-
C67: what deserialisation accepts.
-/
import Verif.Proofs.ReadBack
import Verif.Props.Serde

namespace Tmi.Props
open Model hiding Kind
open Spec Proofs

/-- A value is accepted as a message exactly if it is a way to write what serialisation writes for that message, and
the values in the message are such that they can be read back: numbers fit their types, the months of subscribers are
written as a number, and chrono reads the time from the text that it writes. -/
theorem C67_exact (tc : TimeCodec) (hc : TimeCodec.Stable tc) (k : Kind) (v : Value) (M : Message) :
    k.read tc v = some M ↔ ∃ c, k.write tc M = some c ∧ k.form tc v c ∧ ReadsBack tc M := by
  rw [read_exact hc k v M]
  constructor
  · rintro ⟨c, h1, h2, h3⟩; exact ⟨c, h1, h2, (read_back h1).1 h3⟩
  · rintro ⟨c, h1, h2, h3⟩; exact ⟨c, h1, h2, (read_back h1).2 h3⟩

/-- Which messages are read from what is written for them, whatever text format chrono uses. -/
theorem C67_back (tc : TimeCodec) (k : Kind) (M : Message) (c : Value) (h : k.write tc M = some c) :
    k.read tc c = some M ↔ ReadsBack tc M := read_back h

/-- Whatever is accepted can be written, and what is written is read as the same message. -/
theorem C67_again (tc : TimeCodec) (hc : TimeCodec.Stable tc) (k : Kind) (v : Value) (M : Message)
    (h : k.read tc v = some M) : ∃ c, k.write tc M = some c ∧ k.read tc c = some M := by
  obtain ⟨c, h1, _, h2⟩ := (C67_exact tc hc k v M).1 h
  exact ⟨c, h1, (C67_back tc k M c h1).2 h2⟩

/-- The order of the entries does not matter. -/
theorem C67_order (tc : TimeCodec) (hc : TimeCodec.Stable tc) (k : Kind) (kvs kvs' : List (Bytes × Value))
    (h : kvs.Perm kvs') : k.read tc (.map kvs) = k.read tc (.map kvs') := by
  have hf : ∀ (f : Field) {kvs kvs' : List (Bytes × Value)}, kvs.Perm kvs' → ∀ c, f.among kvs c → f.among kvs' c := by
    rintro f kvs kvs' hp c (⟨x, h1, h2⟩ | ⟨h1, h2, h3⟩)
    · have := hp.filter (fun kv => kv.1 == f.name)
      rw [h1] at this
      exact .inl ⟨x, List.perm_singleton.1 this.symm, h2⟩
    · have := hp.filter (fun kv => kv.1 == f.name)
      rw [h2] at this
      exact .inr ⟨h1, List.perm_nil.1 this.symm, h3⟩
  exact read_congr hc fun f _ c => ⟨hf f h c, hf f h.symm c⟩

/-- Entries under names that are not those of fields do not matter. -/
theorem C67_unknown (tc : TimeCodec) (hc : TimeCodec.Stable tc) (k : Kind) (kvs : List (Bytes × Value)) (x : Value)
    (name : Bytes) (h : ∀ f ∈ k.fields tc, f.name ≠ name) :
    k.read tc (.map ((name, x) :: kvs)) = k.read tc (.map kvs) := by
  refine read_congr hc fun f hf c => ?_
  have : (name == f.name) = false := beq_eq_false_iff_ne.2 fun e => h f hf e.symm
  unfold Field.among
  rw [List.filter_cons, this]
  exact Iff.rfl

/-- A missing optional field is nothing, as if it were there with null. -/
theorem C67_missing (tc : TimeCodec) (hc : TimeCodec.Stable tc) (k : Kind) (kvs : List (Bytes × Value)) (f : Field)
    (hf : f ∈ k.fields tc) (hr : f.required = false) (hm : ∀ kv ∈ kvs, kv.1 ≠ f.name) :
    k.read tc (.map ((f.name, .null) :: kvs)) = k.read tc (.map kvs) := by
  refine read_congr hc fun g hg c => ?_
  unfold Field.among
  by_cases hn : f.name = g.name
  · have e := eq_of_name (fields_nodup tc k) hf hg hn
    subst e
    have h0 : kvs.filter (fun kv => kv.1 == f.name) = [] := by
      rw [List.filter_eq_nil_iff]
      intro kv hkv he
      exact hm kv hkv (by simpa using he)
    rw [List.filter_cons, beq_self_eq_true, if_pos rfl, h0]
    constructor
    · rintro (⟨x, h1, h2⟩ | ⟨_, h1, _⟩)
      · simp only [List.cons.injEq, Prod.mk.injEq, true_and, and_true] at h1
        subst h1
        exact .inr ⟨hr, rfl, (nullFields tc k f hf hr c).1 h2⟩
      · cases h1
    · rintro (⟨x, h1, _⟩ | ⟨_, _, h1⟩)
      · cases h1
      · exact .inl ⟨.null, rfl, (nullFields tc k f hf hr c).2 h1⟩
  · rw [List.filter_cons, beq_eq_false_iff_ne.2 hn]
    exact Iff.rfl

/-- Without a required field, or with a field twice, nothing is accepted. -/
theorem C67_refused (tc : TimeCodec) (hc : TimeCodec.Stable tc) (k : Kind) (kvs : List (Bytes × Value)) (f : Field)
    (hf : f ∈ k.fields tc)
    (h : (f.required = true ∧ ∀ kv ∈ kvs, kv.1 ≠ f.name) ∨ 2 ≤ (kvs.filter (fun kv => kv.1 == f.name)).length) :
    k.read tc (.map kvs) = none := by
  rw [Option.eq_none_iff_forall_ne_some]
  intro M hM
  obtain ⟨c, h1, h2, _⟩ := (C67_exact tc hc k _ M).1 hM
  obtain ⟨cs, rfl⟩ := write_map h1
  obtain ⟨c, ⟨x, h3, _⟩ | ⟨h3, h4, _⟩⟩ := among_of_named hf (form_named.1 h2)
  · rcases h with ⟨_, h⟩ | h
    · have : (f.name, x) ∈ kvs.filter (fun kv => kv.1 == f.name) := by rw [h3]; exact List.mem_singleton.2 rfl
      exact h _ (List.mem_filter.1 this).1 rfl
    · rw [h3] at h
      simp at h
  · rcases h with ⟨h, _⟩ | h
    · rw [h3] at h; cases h
    · rw [h4] at h
      simp at h

theorem isoCodec_stable : TimeCodec.Stable isoCodec := fun _ t _ => isoCodec_back t

def sampleRoom : Message := .roomState ⟨b!"#forsen", b!"22484632", none, some (.enabled (some 600200000000)), some true, none, none⟩

/-- A room state written in another order, with fields left out, with an unknown field, and with a duration of
more nanoseconds than a second has. -/
def sampleRoomMap : Value := .map [
  (b!"r9k", .bool true),
  (b!"channel_id", .str (b!"22484632")),
  (b!"colour", .str (b!"red")),
  (b!"followers_only", .map [(b!"enabled", .map [(b!"nanos", .num 4200000000), (b!"secs", .num 596)])]),
  (b!"channel", .str (b!"#forsen")),
  (b!"slow", .null)]

/-- The same as the sequence of its fields. -/
def sampleRoomSeq : Value := .seq [.str (b!"#forsen"), .str (b!"22484632"), .null,
  .map [(b!"enabled", .seq [.num 600, .num 200000000])], .bool true, .null, .null]

/-- Both are accepted, and hence are ways to write what serialisation writes. -/
example : Kind.roomState.read isoCodec sampleRoomMap = some sampleRoom ∧
    Kind.roomState.read isoCodec sampleRoomSeq = some sampleRoom ∧
    ∃ c, Kind.roomState.write isoCodec sampleRoom = some c ∧ Kind.roomState.form isoCodec sampleRoomMap c ∧
      Kind.roomState.form isoCodec sampleRoomSeq c := by
  have h1 : Kind.roomState.read isoCodec sampleRoomMap = some sampleRoom := by rfl
  have h2 : Kind.roomState.read isoCodec sampleRoomSeq = some sampleRoom := by rfl
  obtain ⟨c, h3, h4, _⟩ := (C67_exact _ isoCodec_stable _ _ _).1 h1
  obtain ⟨c', h3', h4', _⟩ := (C67_exact _ isoCodec_stable _ _ _).1 h2
  rw [h3] at h3'
  cases h3'
  exact ⟨h1, h2, c, h3, h4, h4'⟩

/-- What is not accepted: no channel; the channel twice; a number instead of a name; too short a sequence; a field too
many in a duration; a number that does not fit. -/
example : Kind.join.read isoCodec (.map [(b!"user", .str (b!"ronni"))]) = none ∧
    Kind.join.read isoCodec (.map [(b!"user", .str (b!"ronni")), (b!"channel", .str (b!"#a")),
      (b!"channel", .str (b!"#a"))]) = none ∧
    Kind.join.read isoCodec (.map [(b!"user", .num 1), (b!"channel", .str (b!"#a"))]) = none ∧
    Kind.join.read isoCodec (.seq [.str (b!"#a")]) = none ∧
    Kind.roomState.read isoCodec (.seq [.str (b!"#a"), .str (b!"1"), .null, .null, .null,
      .map [(b!"secs", .num 1), (b!"nanos", .num 0), (b!"x", .num 0)], .null]) = none ∧
    Kind.roomState.read isoCodec (.seq [.str (b!"#a"), .str (b!"1"), .null, .null, .null,
      .seq [.num 18446744073709551616, .num 0], .null]) = none :=
  ⟨rfl, rfl, rfl, rfl, rfl, rfl⟩

/-- A message that does not read back: a subscriber without numeric months.  One that does: the sample. -/
example : ¬ ReadsBack isoCodec (.whisper ⟨b!"a", ⟨b!"1", b!"b", b!"B"⟩, b!"hi", [.subscriber ⟨b!"0", b!"founder", 1⟩], b!"", none⟩) ∧
    ReadsBack isoCodec sampleRoom := by
  constructor
  · intro h
    have h1 := (C67_back isoCodec .whisper _ _ rfl).2 h
    have h2 : Kind.whisper.read isoCodec (Whisper.ser ⟨b!"a", ⟨b!"1", b!"b", b!"B"⟩, b!"hi",
      [.subscriber ⟨b!"0", b!"founder", 1⟩], b!"", none⟩) = none := by rfl
    rw [h2] at h1
    cases h1
  · exact (C67_back isoCodec .roomState _ _ rfl).1 rfl

/-- The hypotheses of `C67_order`, `C67_unknown`, `C67_missing` and `C67_refused` are met. -/
example : Kind.join.read isoCodec (.map [(b!"user", .str (b!"ronni")), (b!"channel", .str (b!"#a"))]) =
      Kind.join.read isoCodec (.map [(b!"channel", .str (b!"#a")), (b!"user", .str (b!"ronni"))]) ∧
    Kind.ping.read isoCodec (.map [(b!"x", .num 0)]) = Kind.ping.read isoCodec (.map []) ∧
    Kind.ping.read isoCodec (.map [(b!"nonce", .null)]) = Kind.ping.read isoCodec (.map []) ∧
    Kind.join.read isoCodec (.map []) = none :=
  ⟨C67_order _ isoCodec_stable _ _ _ (List.Perm.swap _ _ _),
   C67_unknown _ isoCodec_stable .ping [] (.num 0) (b!"x")
     (List.forall_mem_cons.2 ⟨by decide, fun _ h => nomatch h⟩),
   C67_missing _ isoCodec_stable .ping [] (may (b!"nonce") .text) List.mem_cons_self rfl (fun _ h => nomatch h),
   C67_refused _ isoCodec_stable .join [] (must (b!"channel") .text) List.mem_cons_self
     (.inl ⟨rfl, fun _ h => nomatch h⟩)⟩

end Tmi.Props
