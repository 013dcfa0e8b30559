/-
Typed messages: from the accessors to the specification.
-/
import Verif.Spec.Msg
import Verif.Proofs.LineSpec
import Verif.Props.Num

namespace Tmi.Proofs
open Tmi.Model Tmi.Spec Tmi.Props

/-! ### `OptionT R` -/

theorem run_req {α β : Type} (x : Option α) (f : α → OptionT R β) :
    (req (.ok x) >>= f).run = x.elim (.ok none) (fun a => (f a).run) := by cases x <;> rfl
theorem run_some? {α β : Type} (x : Option α) (f : α → OptionT R β) :
    (some? x >>= f).run = x.elim (.ok none) (fun a => (f a).run) := by cases x <;> rfl
theorem run_get {α β : Type} (x : α) (f : α → OptionT R β) :
    (get' (.ok x) >>= f).run = (f x).run := rfl
theorem run_pure {α : Type} (x : α) : (pure x : OptionT R α).run = .ok (some x) := rfl
theorem run_pure_bind {α β : Type} (x : α) (f : α → OptionT R β) :
    ((pure x : OptionT R α) >>= f).run = (f x).run := rfl
theorem run_failure {α : Type} : (failure : OptionT R α).run = .ok none := rfl
theorem run_failure_bind {α β : Type} (f : α → OptionT R β) :
    ((failure : OptionT R α) >>= f).run = .ok none := rfl
theorem run_ite {α : Type} (c : Prop) [Decidable c] (a b : OptionT R α) :
    (if c then a else b).run = if c then a.run else b.run := by split <;> rfl
theorem run_ite_bind {α β : Type} (c : Prop) [Decidable c] (a b : OptionT R α) (f : α → OptionT R β) :
    ((if c then a else b) >>= f).run = if c then (a >>= f).run else (b >>= f).run := by split <;> rfl
theorem run_assoc {α β γ : Type} (x : OptionT R α) (f : α → OptionT R β) (g : β → OptionT R γ) :
    (x >>= f >>= g).run = (x >>= fun a => f a >>= g).run := by rw [bind_assoc]

theorem elim_some {α β : Type} (x : Option α) (g : α → R (Option β)) (p : β) :
    x.elim (.ok none) g = .ok (some p) ↔ ∃ a, x = some a ∧ g a = .ok (some p) := by
  cases x <;> simp

theorem ite_some {β : Type} (c : Prop) [Decidable c] (g : R (Option β)) (p : β) :
    (if ¬ c then .ok none else g) = .ok (some p) ↔ c ∧ g = .ok (some p) := by
  by_cases h : c <;> simp [h]

/-- The result is not a fault. -/
def Fine {α : Type} (x : R α) : Prop := ∃ r, x = .ok r

theorem Fine.ok {α : Type} (x : α) : Fine (.ok x : R α) := ⟨x, rfl⟩
theorem Fine.elim {α β : Type} {x : Option α} {g : α → R (Option β)} (h : ∀ a, Fine (g a)) :
    Fine (x.elim (.ok none) g) := by cases x with
  | none => exact ⟨none, rfl⟩
  | some a => exact h a
theorem Fine.ite {α : Type} {c : Prop} [Decidable c] {a b : R α} (ha : Fine a) (hb : Fine b) :
    Fine (if c then a else b) := by split <;> assumption

/-! ### Accessors on a represented message -/

theorem nickOf?_eq {m : MsgRef} {l : Line} (R : Represents m l) : nickOf? m = .ok l.nick := by
  unfold nickOf? Line.nick
  rw [R.prefix?]
  cases l.prefix? <;> rfl

theorem commandOf_known {c : Command} (h : ∀ s, c ≠ .other s) (tok : Bytes) :
    commandOf tok = c ↔ tok = c.asStr := by
  constructor
  · intro h'; rw [← h', commandOf_asStr]
  · rintro rfl
    cases c <;> first | rfl | exact absurd rfl (h _)

theorem channel_eq {m : MsgRef} {l : Line} (R : Represents m l) {c : Command}
    (h : commandOf l.command = c) (h1 : c ≠ .rplNames) (h2 : c ≠ .rplEndOfNames) :
    m.channel = .ok l.channel := by
  unfold MsgRef.channel
  rw [R.command, bind_ok, h]
  split
  · exact absurd rfl h1
  · exact absurd rfl h2
  · exact R.rawChannel

/-! ### Values -/

theorem optU64 (o : Option Bytes) : OptU64 o (o.bind parseU64) := by
  intro n
  rw [Option.bind_eq_some_iff]
  simp only [C33_u64]

theorem optU64_unique {o : Option Bytes} {a b : Option Nat} (ha : OptU64 o a) (hb : OptU64 o b) :
    a = b := by
  apply Option.ext
  intro n
  exact (ha n).trans (hb n).symm

theorem optU64_iff (o : Option Bytes) (r : Option Nat) : o.bind parseU64 = r ↔ OptU64 o r :=
  ⟨fun h => h ▸ optU64 o, fun h => optU64_unique (optU64 o) h⟩

theorem optSecs (o : Option Bytes) : OptSecs o ((o.bind parseU64).map fromSecs) := by
  intro d
  rw [Option.map_eq_some_iff]
  simp only [optU64 o _, fromSecs]
  constructor
  · rintro ⟨n, ⟨v, h, hn, hl⟩, rfl⟩
    exact ⟨v, n, h, hn, hl, rfl⟩
  · rintro ⟨v, n, h, hn, hl, rfl⟩
    exact ⟨n, ⟨v, h, hn, hl⟩, rfl⟩

theorem optSecs_iff (o : Option Bytes) (r : Option Nat) :
    (o.bind parseU64).map fromSecs = r ↔ OptSecs o r :=
  ⟨fun h => h ▸ optSecs o, fun h => Option.ext fun n => (optSecs o n).trans (h n).symm⟩

theorem optBool_iff (o : Option Bytes) (r : Option Bool) : o.map parseBool = r ↔ OptBool o r := by
  have key : OptBool o (o.map parseBool) := by
    intro b
    rw [Option.map_eq_some_iff]
    have : ∀ v, parseBool v = b ↔ (b = true ↔ IsTrue v) := by
      intro v
      rw [show IsTrue v ↔ parseBool v = true from (C33_bool v).symm]
      cases b <;> cases parseBool v <;> simp
    simp only [this]
  constructor
  · intro h; exact h ▸ key
  · intro h
    apply Option.ext
    intro b
    exact (key b).trans (h b).symm

theorem optText_iff (o r : Option Bytes) : nonEmpty o = r ↔ OptText o r := by
  have key : OptText o (nonEmpty o) := by
    intro c
    unfold nonEmpty
    rw [Option.filter_eq_some_iff]
    simp
  constructor
  · intro h; exact h ▸ key
  · intro h
    apply Option.ext
    intro b
    exact (key b).trans (h b).symm

theorem timestamp_iff (l : Line) (t : Timestamp) :
    (l.tag (b!"tmi-sent-ts")).bind parseTimestamp = some t ↔ TimestampOf l t := by
  rw [Option.bind_eq_some_iff]
  simp only [C33_timestamp]
  unfold TimestampOf
  exact exists_congr fun v => exists_and_left.symm

theorem timestamp_iff' (l : Line) (t : Timestamp) :
    (∃ v, l.tag (b!"tmi-sent-ts") = some v ∧ parseTimestamp v = some t) ↔ TimestampOf l t := by
  rw [← timestamp_iff, Option.bind_eq_some_iff]

theorem i64_iff (v : Bytes) (n : Int) : parseI64 v = some n ↔ I64 v n := C33_i64 v n

theorem stripPrefix_iff : ∀ (p s t : Bytes), stripPrefix p s = some t ↔ s = p ++ t
  | [], s, t => by simp [stripPrefix, eq_comm]
  | a :: p, [], t => by simp [stripPrefix]
  | a :: p, b :: s, t => by
    unfold stripPrefix
    split
    · rename_i h; subst h; rw [stripPrefix_iff p s t]; simp
    · rename_i h; simp; intro h'; exact absurd h'.symm h

theorem stripSuffix_iff (x : UInt8) (s t : Bytes) : stripSuffix x s = some t ↔ s = t ++ [x] := by
  unfold stripSuffix
  constructor
  · intro h
    split at h
    · rename_i h'
      simp at h
      obtain ⟨ys, rfl⟩ := List.getLast?_eq_some_iff.1 h'
      simp at h; rw [h]
    · simp at h
  · rintro rfl
    simp

theorem text_iff (input text : Bytes) (act : Bool) :
    parseMessageText input = (text, act) ↔ TextOf input text act := by
  have key : ∀ body, (stripPrefix (0x01 :: b!"ACTION ") input).bind (stripSuffix 0x01) = some body ↔
      input = 0x01 :: b!"ACTION " ++ body ++ [0x01] := by
    intro body
    rw [Option.bind_eq_some_iff]
    simp only [stripPrefix_iff, stripSuffix_iff]
    constructor
    · rintro ⟨a, rfl, rfl⟩; simp
    · rintro rfl; exact ⟨_, rfl, by simp⟩
  have hp : parseMessageText input =
      match (stripPrefix (0x01 :: b!"ACTION ") input).bind (stripSuffix 0x01) with
      | some s => (s, true)
      | none => (input, false) := by
    unfold parseMessageText
    cases stripPrefix (0x01 :: b!"ACTION ") input with
    | none => rfl
    | some s => simp only [Option.bind_some]; cases stripSuffix 0x01 s <;> rfl
  rw [hp]
  unfold TextOf
  cases h : (stripPrefix (0x01 :: b!"ACTION ") input).bind (stripSuffix 0x01) with
  | some s =>
    have hs := (key s).1 h
    simp only [← key, h]
    simp
    constructor
    · rintro ⟨rfl, rfl⟩; exact ⟨rfl, rfl⟩
    · rintro ⟨rfl, rfl⟩; exact ⟨rfl, rfl⟩
  | none =>
    simp only [← key, h]
    simp
    constructor
    · rintro ⟨rfl, rfl⟩; exact ⟨rfl, rfl⟩
    · rintro ⟨rfl, rfl⟩; exact ⟨rfl, rfl⟩

/-! ### Splitting -/

theorem fields_none {x : UInt8} {s : Bytes} (h : x ∉ s) : fields x s = [s] := by
  rw [fields.eq_def]
  split
  · rfl
  · rename_i h'; rw [cut_none h] at h'; simp at h'

theorem fields_some {x : UInt8} {a : Bytes} (b : Bytes) (h : x ∉ a) :
    fields x (a ++ x :: b) = a :: fields x b := by
  rw [fields.eq_def]
  split
  · rename_i h'; rw [cut_append b h] at h'; simp at h'
  · rename_i a' b' h'; rw [cut_append b h] at h'; simp at h'; rw [h'.1, h'.2]

theorem splitOn_none {x : UInt8} : ∀ {s : Bytes}, x ∉ s → splitOn x s = [s]
  | [], _ => rfl
  | y :: t, h => by
    simp at h
    unfold splitOn
    rw [if_neg (fun e => h.1 e.symm), splitOn_none h.2]

theorem splitOn_some {x : UInt8} : ∀ {a : Bytes} (b : Bytes), x ∉ a →
    splitOn x (a ++ x :: b) = a :: splitOn x b
  | [], b, _ => by simp [splitOn]
  | y :: t, b, h => by
    simp at h
    rw [List.cons_append, splitOn, if_neg (fun e => h.1 e.symm), splitOn_some b h.2]

theorem splitOn_eq (x : UInt8) : ∀ (n : Nat) (s : Bytes), s.length ≤ n → splitOn x s = fields x s := by
  intro n
  induction n with
  | zero =>
    intro s h
    have : s = [] := List.length_eq_zero_iff.1 (by omega)
    subst this
    rw [fields_none (by simp)]; rfl
  | succ n ih =>
    intro s h
    by_cases hx : x ∈ s
    · obtain ⟨a, b, rfl, ha⟩ := mem_split hx
      rw [splitOn_some b ha, fields_some b ha, ih b (by simp at h; omega)]
    · rw [splitOn_none hx, fields_none hx]

theorem splitOn_fields (x : UInt8) (s : Bytes) : splitOn x s = fields x s :=
  splitOn_eq x s.length s (Nat.le_refl _)

theorem splitOnce_eq (x : UInt8) (s : Bytes) : splitOnce x s = cut x s := by
  unfold splitOnce
  by_cases hx : x ∈ s
  · obtain ⟨a, b, rfl, ha⟩ := mem_split hx
    rw [find_append b ha, cut_append b ha]
    simp [List.drop_append]
  · rw [find_none hx, cut_none hx]; rfl

theorem fields_ne_nil (x : UInt8) (s : Bytes) : fields x s ≠ [] := by
  rw [fields.eq_def]; split <;> simp

theorem joinWith_fields (x : UInt8) : ∀ (n : Nat) (s : Bytes), s.length ≤ n →
    joinWith x (fields x s) = s ∧ ∀ p ∈ fields x s, x ∉ p := by
  intro n
  induction n with
  | zero =>
    intro s h
    have : s = [] := List.length_eq_zero_iff.1 (by omega)
    subst this
    rw [fields_none (by simp)]; simp [joinWith]
  | succ n ih =>
    intro s h
    by_cases hx : x ∈ s
    · obtain ⟨a, b, rfl, ha⟩ := mem_split hx
      rw [fields_some b ha]
      have := ih b (by simp at h; omega)
      refine ⟨?_, ?_⟩
      · cases hf : fields x b with
        | nil => exact absurd hf (fields_ne_nil x b)
        | cons p ps => rw [hf] at this; rw [joinWith, this.1]; simp
      · intro p hp
        rw [List.mem_cons] at hp
        rcases hp with rfl | hp
        · exact ha
        · exact this.2 p hp
    · rw [fields_none hx]; simp [joinWith]; exact hx

theorem fields_joinWith (x : UInt8) : ∀ ps : List Bytes, ps ≠ [] → (∀ p ∈ ps, x ∉ p) →
    fields x (joinWith x ps) = ps
  | [], h, _ => absurd rfl h
  | [p], _, h => fields_none (h p (by simp))
  | p :: q :: ps, _, h => by
    rw [joinWith, fields_some _ (h p (by simp)), fields_joinWith x (q :: ps) (by simp)
      (fun r hr => h r (List.mem_cons_of_mem _ hr))]
    simp

/-! ### Badges -/

theorem find?_lookup (key : Bytes) : ∀ l : List (Bytes × Bytes),
    (l.find? fun p => p.1 == key).map (·.2) = lookup key l
  | [] => rfl
  | (k, v) :: l => by
    unfold lookup
    rw [List.find?_cons]
    by_cases h : k = key
    · simp [h]
    · have hk : (k == key) = false := by simp [h]
      simp only [hk, if_neg h]
      exact find?_lookup key l

theorem monthsOf_iff (extra : Option Bytes) (m : Nat) :
    (extra.bind parseU64).getD 1 = m ↔ MonthsOf extra m := by
  unfold MonthsOf
  cases h : extra.bind parseU64 with
  | none =>
    have : ¬ ∃ e k, extra = some e ∧ IsNat e k ∧ k < 2 ^ 64 := by
      rintro ⟨e, k, h1, h2⟩
      have := ((optU64 extra) k).2 ⟨e, h1, h2⟩
      rw [h] at this; simp at this
    constructor
    · intro h'; exact .inr ⟨by simpa using h'.symm, this⟩
    · rintro (⟨e, h'⟩ | h')
      · exact absurd ⟨e, m, h'⟩ this
      · simpa using h'.1.symm
  | some k =>
    obtain ⟨e, h1, h2⟩ := ((optU64 extra) k).1 h
    simp only [Option.getD_some]
    constructor
    · rintro rfl; exact .inl ⟨e, h1, h2⟩
    · rintro (⟨e', h1', h2'⟩ | ⟨_, h'⟩)
      · rw [h1] at h1'; simp at h1'; subst h1'
        exact C33_unique h2.1 h2'.1
      · exact absurd ⟨e, k, h1, h2⟩ h'

theorem badgeOf_iff (name version : Bytes) (extra : Option Bytes) (x : Badge) :
    (BadgeData.mk name version extra).toBadge = x ↔ BadgeOf name version extra x := by
  unfold BadgeData.toBadge BadgeOf
  simp only []
  split
  · exact eq_comm
  split
  · exact eq_comm
  split
  · exact eq_comm
  split
  · exact eq_comm
  split
  · constructor
    · rintro rfl; exact ⟨_, rfl, (monthsOf_iff _ _).1 rfl⟩
    · rintro ⟨m, rfl, h⟩; rw [(monthsOf_iff _ _).2 h]
  · exact eq_comm

theorem parseBadges_eq (b i : Bytes) :
    parseBadges b i = (entries b).map fun nv =>
      (BadgeData.mk nv.1 nv.2 (lookup nv.1 (entries i))).toBadge := by
  have hs : splitOnce SLASH = cut SLASH := funext (splitOnce_eq SLASH)
  unfold parseBadges
  simp only [splitOn_fields, find?_lookup, hs]
  split
  · rename_i h; subst h
    have : entries [] = [] := by unfold entries; rw [fields_none (by simp)]; rfl
    rw [this]; rfl
  · rfl

theorem badgesOf_iff {m : MsgRef} {l : Line} (R : Represents m l) :
    ∃ r, badgesOf m = .ok r ∧
      ∀ r', r = r' ↔ BadgesOf (l.tag (b!"badges")) (l.tag (b!"badge-info")) r' := by
  unfold badgesOf
  rw [R.tag, bind_ok, R.tag, bind_ok]
  have e1 : lookup (Tag.badges.asStr) l.tags = l.tag (b!"badges") := rfl
  have e2 : lookup (Tag.badgeInfo.asStr) l.tags = l.tag (b!"badge-info") := rfl
  rw [e1, e2]
  cases h1 : l.tag (b!"badges") with
  | none =>
    refine ⟨[], rfl, fun r' => ⟨?_, fun h => (h.absent (.inl rfl)).symm⟩⟩
    rintro rfl
    exact ⟨fun _ => rfl, fun _ _ h => by simp at h⟩
  | some b =>
    cases h2 : l.tag (b!"badge-info") with
    | none =>
      refine ⟨[], rfl, fun r' => ⟨?_, fun h => (h.absent (.inr rfl)).symm⟩⟩
      rintro rfl
      exact ⟨fun _ => rfl, fun _ _ _ h => by simp at h⟩
    | some i =>
      refine ⟨_, rfl, fun r' => ?_⟩
      rw [parseBadges_eq]
      constructor
      · rintro rfl
        refine ⟨fun h => by simp at h, fun b' i' hb hi => ?_⟩
        simp at hb hi; subst hb; subst hi
        refine ⟨by simp, fun k n v hk => ?_⟩
        refine ⟨_, ?_, (badgeOf_iff _ _ _ _).1 rfl⟩
        rw [List.getElem?_map, hk]; rfl
      · rintro ⟨_, hp⟩
        obtain ⟨hl, hk⟩ := hp b i rfl rfl
        apply List.ext_getElem?
        intro k
        rw [List.getElem?_map]
        cases he : (entries b)[k]? with
        | none =>
          rw [List.getElem?_eq_none_iff] at he
          rw [Option.map_none, eq_comm, List.getElem?_eq_none_iff]; omega
        | some nv =>
          obtain ⟨n, v⟩ := nv
          obtain ⟨x, hx, hb⟩ := hk k n v he
          rw [hx, Option.map_some, (badgeOf_iff _ _ _ _).2 hb]

theorem emoteSets_iff (l : Line) (r : List Bytes) :
    ((l.tag (b!"emote-sets")).map splitComma).getD [] = r ↔ EmoteSetsOf l r := by
  unfold EmoteSetsOf splitComma
  cases l.tag (b!"emote-sets") with
  | none => exact eq_comm
  | some s => simp only [Option.map_some, Option.getD_some, splitOn_fields]; exact eq_comm

end Tmi.Proofs
