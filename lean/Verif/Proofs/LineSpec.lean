/-
Facts about the grammar specification itself.
-/
import Verif.Proofs.Total
import Verif.Proofs.Words

namespace Tmi.Model
open Tmi.Spec

theorem takeToken_cases (s : Bytes) :
    (∃ a b, s = a ++ SP :: b ∧ SP ∉ a ∧ takeToken s = (a, b)) ∨ (SP ∉ s ∧ takeToken s = (s, [])) := by
  by_cases hm : SP ∈ s
  · obtain ⟨a, b, rfl, ha⟩ := mem_split hm
    exact .inl ⟨a, b, rfl, ha, by unfold takeToken; rw [cut_append b ha]⟩
  · exact .inr ⟨hm, by unfold takeToken; rw [cut_none hm]⟩

theorem takePrefix_cases (s : Bytes) :
    (∃ p rest, s = COLON :: (p ++ SP :: rest) ∧ SP ∉ p ∧ takePrefix s = (some p, rest)) ∨
    takePrefix s = (none, s) := by
  by_cases hc : ∃ r, s = COLON :: r
  · obtain ⟨r, rfl⟩ := hc
    by_cases hsp : SP ∈ r
    · obtain ⟨p, rest, rfl, hp⟩ := mem_split hsp
      exact .inl ⟨p, rest, rfl, hp, by unfold takePrefix; simp only [if_true, cut_append rest hp]⟩
    · exact .inr (by unfold takePrefix; simp only [if_true, cut_none hsp])
  · refine .inr ?_
    unfold takePrefix
    split
    · rename_i c r
      rw [if_neg (by rintro rfl; exact hc ⟨r, rfl⟩)]
    · rfl

theorem takeTags_cases (s : Bytes) :
    (∃ t rest, s = AT :: (t ++ SP :: rest) ∧ SP ∉ t ∧ takeTags s = (some t, rest)) ∨
    takeTags s = (none, s) := by
  rcases tag_shape s with h | ⟨t, rest, rfl, h⟩ | ⟨r, rfl, h⟩
  · exact .inr (takeTags_no_at h)
  · exact .inl ⟨t, rest, rfl, h, takeTags_space rest h⟩
  · exact .inr (takeTags_no_space h)

/-- Everything after the command. -/
theorem takeChannel_cases (s : Bytes) :
    (∃ c rest, s = HASH :: c ++ SP :: rest ∧ SP ∉ c ∧ takeChannel s = (some (HASH :: c), rest)) ∨
    (∃ c, s = HASH :: c ∧ SP ∉ c ∧ takeChannel s = (some (HASH :: c), [])) ∨
    ((∀ r, s ≠ HASH :: r) ∧ takeChannel s = (none, s)) := by
  cases s with
  | nil => exact .inr (.inr ⟨by simp, rfl⟩)
  | cons x r =>
    by_cases hx : x = HASH
    · subst hx
      unfold takeChannel
      simp only [if_true]
      rcases takeToken_cases (HASH :: r) with ⟨a, b, he, ha, ht⟩ | ⟨hr, ht⟩
      · cases a with
        | nil => simp at he; exact absurd he.1 (by decide)
        | cons y a =>
          simp at he
          obtain ⟨rfl, rfl⟩ := he
          rw [ht]
          exact .inl ⟨a, b, rfl, fun h => ha (by simp [h]), rfl⟩
      · rw [ht]
        exact .inr (.inl ⟨r, rfl, fun h => hr (by simp [h]), rfl⟩)
    · refine .inr (.inr ⟨?_, ?_⟩)
      · intro r' h; simp at h; exact hx h.1
      · unfold takeChannel; simp only [if_neg hx]

theorem line_channel {s : Bytes} {l : Line} (h : line s = some l) {c : Bytes}
    (hc : l.channel = some c) : ∃ n, c = HASH :: n ∧ SP ∉ n := by
  unfold line at h
  simp only [] at h
  split at h
  · simp at h
  · simp at h
    subst h
    simp only [] at hc
    rcases takeChannel_cases (takeToken (takePrefix (takeTags s).2).2).2 with
      ⟨n, r, _, hn, ht⟩ | ⟨n, _, hn, ht⟩ | ⟨_, ht⟩
    · rw [ht] at hc; simp at hc; exact ⟨n, hc.symm, hn⟩
    · rw [ht] at hc; simp at hc; exact ⟨n, hc.symm, hn⟩
    · rw [ht] at hc; simp at hc

theorem line_params_ne {s : Bytes} {l : Line} (h : line s = some l) {p : Bytes}
    (hp : l.params = some p) : p ≠ [] := by
  unfold line at h
  simp only [] at h
  split at h
  · simp at h
  · simp at h
    subst h
    simp only [] at hp
    split at hp
    · simp at hp
    · rename_i hne
      simp at hp
      rw [← hp]; exact hne

theorem line_command_ne {s : Bytes} {l : Line} (h : line s = some l) :
    l.command ≠ [] ∧ SP ∉ l.command := by
  unfold line at h
  simp only [] at h
  split at h
  · simp at h
  · rename_i hne
    simp at h
    subst h
    refine ⟨hne, ?_⟩
    rcases takeToken_cases (takePrefix (takeTags s).2).2 with ⟨a, b, _, ha, ht⟩ | ⟨ha, ht⟩
    · rw [ht]; exact ha
    · rw [ht]; exact ha

theorem line_rebuild {s : Bytes} {l : Line} (h : line s = some l) :
    ∃ t : Option Bytes, t = (takeTags s).1 ∧
      l.tags = (match t with | some t => splitTags t | none => []) ∧
      ((s = (match t with | some t => [AT] ++ t ++ [SP] | none => [])
        ++ (match l.prefix? with | some p => [COLON] ++ p ++ [SP] | none => [])
        ++ l.command
        ++ (match l.channel with | some c => [SP] ++ c | none => [])
        ++ (match l.params with | some p => [SP] ++ p | none => [])) ∨
      (l.params = none ∧
        s = (match t with | some t => [AT] ++ t ++ [SP] | none => [])
        ++ (match l.prefix? with | some p => [COLON] ++ p ++ [SP] | none => [])
        ++ l.command
        ++ (match l.channel with | some c => [SP] ++ c | none => []) ++ [SP])) := by
  unfold line at h
  simp only [] at h
  split at h
  · simp at h
  · rename_i hne
    simp at h
    subst h
    refine ⟨(takeTags s).1, rfl, rfl, ?_⟩
    simp only []
    have htags : s = (match (takeTags s).1 with | some t => [AT] ++ t ++ [SP] | none => [])
        ++ (takeTags s).2 := by
      rcases takeTags_cases s with ⟨t, rest, he, _, ht⟩ | ht
      · rw [ht, he]; simp
      · rw [ht]; simp
    have hpre : (takeTags s).2 =
        (match (takePrefix (takeTags s).2).1 with | some p => [COLON] ++ p ++ [SP] | none => [])
        ++ (takePrefix (takeTags s).2).2 := by
      rcases takePrefix_cases (takeTags s).2 with ⟨p, rest, he, _, ht⟩ | ht
      · rw [ht, he]; simp
      · rw [ht]; simp
    have hrest : ∀ w : Bytes, (takeToken w).1 ≠ [] →
        (w = (takeToken w).1
          ++ (match (takeChannel (takeToken w).2).1 with | some c => [SP] ++ c | none => [])
          ++ (match (if (takeChannel (takeToken w).2).2 = [] then none
              else some (takeChannel (takeToken w).2).2) with | some p => [SP] ++ p | none => [])) ∨
        ((if (takeChannel (takeToken w).2).2 = [] then none
              else some (takeChannel (takeToken w).2).2) = none ∧
          w = (takeToken w).1
          ++ (match (takeChannel (takeToken w).2).1 with | some c => [SP] ++ c | none => [])
          ++ [SP]) := by
      intro w hw
      rcases takeToken_cases w with ⟨a, b, rfl, _, ht⟩ | ⟨_, ht⟩
      · rw [ht]
        simp only []
        rcases takeChannel_cases b with ⟨n, r, rfl, _, hc⟩ | ⟨n, rfl, _, hc⟩ | ⟨_, hc⟩
        · rw [hc]
          by_cases hr : r = []
          · subst hr; right; simp
          · left; simp [hr]
        · rw [hc]; left; simp
        · rw [hc]
          by_cases hr : b = []
          · subst hr; right; simp
          · left; simp [hr]
      · rw [ht]
        left
        simp [takeChannel]
    rcases hrest (takePrefix (takeTags s).2).2 hne with h1 | ⟨h1, h2⟩
    · left
      conv => lhs; rw [htags, hpre, h1]
      simp only [List.append_assoc]
    · right
      refine ⟨h1, ?_⟩
      conv => lhs; rw [htags, hpre, h2]
      simp only [List.append_assoc]

/-! ### Rendering tags -/

theorem splitTags_nil : splitTags [] = [] := by
  rw [splitTags]; split
  · rfl
  · rename_i h; simp [cut] at h

theorem splitTags_last {k v : Bytes} (hk : EQS ∉ k) (hv : SEMI ∉ v) :
    splitTags (k ++ EQS :: v) = [(k, v)] := by
  rw [splitTags]
  split
  · rename_i h; rw [cut_append v hk] at h; simp at h
  · rename_i h
    rw [cut_append v hk] at h
    simp at h
    obtain ⟨rfl, rfl⟩ := h
    split
    · rfl
    · rename_i h'; rw [cut_none hv] at h'; simp at h'

theorem splitTags_cons {k v r : Bytes} (hk : EQS ∉ k) (hv : SEMI ∉ v) :
    splitTags (k ++ EQS :: (v ++ SEMI :: r)) = (k, v) :: splitTags r := by
  rw [splitTags]
  split
  · rename_i h; rw [cut_append _ hk] at h; simp at h
  · rename_i h
    rw [cut_append _ hk] at h
    simp at h
    obtain ⟨rfl, rfl⟩ := h
    split
    · rename_i h'; rw [cut_append r hv] at h'; simp at h'
    · rename_i h'
      rw [cut_append r hv] at h'
      simp at h'
      obtain ⟨rfl, rfl⟩ := h'
      rfl

theorem splitTags_render : ∀ ps : List (Bytes × Bytes),
    (∀ p ∈ ps, EQS ∉ p.1 ∧ SEMI ∉ p.2) → splitTags (renderTags ps) = ps
  | [], _ => by rw [renderTags]; exact splitTags_nil
  | [(k, v)], h => by
    have := h (k, v) (by simp)
    rw [renderTags]
    exact splitTags_last this.1 this.2
  | (k, v) :: p :: ps, h => by
    have hkv := h (k, v) (by simp)
    rw [renderTags]
    · rw [splitTags_cons hkv.1 hkv.2, splitTags_render (p :: ps) fun q hq => h q (by simp [hq])]
    · simp

theorem renderTags_utf8 : ∀ ps : List (Bytes × Bytes),
    (∀ p ∈ ps, Utf8 p.1 ∧ Utf8 p.2) → Utf8 (renderTags ps)
  | [], _ => .nil
  | [(k, v)], h => by
    have := h (k, v) (by simp)
    rw [renderTags]
    exact this.1.append (.cons (by decide) this.2)
  | (k, v) :: p :: ps, h => by
    have hkv := h (k, v) (by simp)
    rw [renderTags]
    · exact hkv.1.append (.cons (by decide) (hkv.2.append (.cons (by decide)
        (renderTags_utf8 (p :: ps) fun q hq => h q (by simp [hq])))))
    · simp

theorem renderTags_no_space : ∀ ps : List (Bytes × Bytes),
    (∀ p ∈ ps, SP ∉ p.1 ∧ SP ∉ p.2) → SP ∉ renderTags ps
  | [], _ => by simp [renderTags]
  | [(k, v)], h => by
    have := h (k, v) (by simp)
    rw [renderTags]
    simp [this.1, this.2]
    decide
  | (k, v) :: p :: ps, h => by
    have hkv := h (k, v) (by simp)
    have ih := renderTags_no_space (p :: ps) fun q hq => h q (by simp [hq])
    rw [renderTags]
    · simp [hkv.1, hkv.2, ih]
      decide
    · simp

/-! ### Prefix -/

theorem display_iff (p : Bytes) :
    (⟨nickOf p, userOf p, hostOf p⟩ : Prefix).display = p ↔ BANG ∉ hostOf p := by
  cases hat : cutLast AT p with
  | none =>
    have hna := cutLast_none.1 hat
    have hh : hostOf p = p := by unfold hostOf; rw [hat]
    have hu : userOf p = none := by unfold userOf; rw [hat]
    cases hb : cutLast BANG p with
    | none =>
      have hnb := cutLast_none.1 hb
      have hn : nickOf p = none := by unfold nickOf; rw [hb, hat]; rfl
      rw [hh, hu, hn]
      simp [Prefix.display, hnb]
    | some r =>
      obtain ⟨n, q⟩ := r
      have hs := cutLast_some hb
      have hn : nickOf p = some n := by unfold nickOf; rw [hb]
      rw [hh, hu, hn]
      have hb' : BANG ∈ p := by rw [hs.1]; simp
      constructor
      · intro h
        simp [Prefix.display] at h
        have := congrArg List.length h
        simp at this
        omega
      · intro h; exact absurd hb' h
  | some r =>
    obtain ⟨q, h⟩ := r
    have hs := cutLast_some hat
    have hh : hostOf p = h := by unfold hostOf; rw [hat]
    rw [hh]
    by_cases hbh : BANG ∈ h
    · -- the last `!` lies in the host
      refine ⟨fun hd => ?_, fun hn => absurd hbh hn⟩
      exfalso
      cases hbh' : cutLast BANG h with
      | none => exact cutLast_none.1 hbh' hbh
      | some r =>
        obtain ⟨n, w⟩ := r
        have hs' := cutLast_some hbh'
        have hnick : nickOf p = some (q ++ AT :: n) := by
          unfold nickOf
          have : p = (q ++ AT :: n) ++ BANG :: w := by rw [hs.1, hs'.1]; simp
          rw [this, cutLast_append _ hs'.2]
        rw [hnick] at hd
        have hl := congrArg List.length hd
        have hpl : p.length = q.length + (h.length + 1) := by rw [hs.1]; simp
        have hnl : h.length = n.length + (w.length + 1) := by rw [hs'.1]; simp
        cases hu : userOf p with
        | none =>
          rw [hu] at hl
          simp [Prefix.display] at hl
          omega
        | some u =>
          rw [hu] at hl
          simp [Prefix.display] at hl
          omega
    · refine ⟨fun _ => hbh, fun _ => ?_⟩
      have hu : userOf p = (cutLast BANG q).map (·.2) := by unfold userOf; rw [hat]
      cases hbq : cutLast BANG q with
      | none =>
        have hnb : BANG ∉ p := by
          rw [hs.1]
          have := cutLast_none.1 hbq
          simp [this, hbh]
          decide
        have hn : nickOf p = some q := by
          unfold nickOf; rw [cutLast_none.2 hnb, hat]; rfl
        rw [hn, hu, hbq]
        simp [Prefix.display, hs.1]
      | some r =>
        obtain ⟨n, u⟩ := r
        have hs' := cutLast_some hbq
        have hn : nickOf p = some n := by
          unfold nickOf
          have hp : p = n ++ BANG :: (u ++ AT :: h) := by rw [hs.1, hs'.1]; simp
          rw [hp, cutLast_append _ (by simp [hs'.2, hbh]; decide)]
        rw [hn, hu, hbq]
        simp [Prefix.display, hs.1, hs'.1]

/-- Lookup returns the first pair with that key. -/
theorem lookup_eq_some {key v : Bytes} : ∀ {l : List (Bytes × Bytes)},
    lookup key l = some v ↔ ∃ a b, l = a ++ (key, v) :: b ∧ ∀ p ∈ a, p.1 ≠ key
  | [] => by simp [lookup]
  | (k, w) :: r => by
    rw [lookup]
    by_cases hk : k = key
    · subst hk
      simp only [if_true, Option.some.injEq]
      constructor
      · rintro rfl; exact ⟨[], r, rfl, by simp⟩
      · rintro ⟨a, b, he, ha⟩
        cases a with
        | nil => simp at he; exact he.1
        | cons p a =>
          simp at he
          exact absurd (by rw [← he.1]) (ha p (by simp))
    · rw [if_neg hk, lookup_eq_some (l := r)]
      constructor
      · rintro ⟨a, b, rfl, ha⟩
        refine ⟨(k, w) :: a, b, rfl, ?_⟩
        intro p hp
        rcases List.mem_cons.1 hp with rfl | hp
        · exact hk
        · exact ha p hp
      · rintro ⟨a, b, he, ha⟩
        cases a with
        | nil => simp at he; exact absurd he.1.1 hk
        | cons p a =>
          simp at he
          exact ⟨a, b, he.2, fun q hq => ha q (by simp [hq])⟩

theorem lookup_eq_none {key : Bytes} : ∀ {l : List (Bytes × Bytes)},
    lookup key l = none ↔ ∀ p ∈ l, p.1 ≠ key
  | [] => by simp [lookup]
  | (k, w) :: r => by
    rw [lookup]
    by_cases hk : k = key
    · simp [hk]
    · rw [if_neg hk, lookup_eq_none (l := r)]
      simp [hk]

end Tmi.Model

namespace Tmi.Model
open Tmi.Spec

theorem commandOf_asStr (tok : Bytes) : (commandOf tok).asStr = tok := by
  unfold commandOf
  cases h : knownCommands.find? fun c => c.asStr == tok with
  | none => rfl
  | some c => simpa using List.find?_some h

theorem parse_src {b : Build} {s : Bytes} {m : MsgRef} (h : MsgRef.parse b s = .ok (some m)) :
    m.src = s := by
  unfold MsgRef.parse at h
  cases h1 : parseTags b s 0 with
  | error e => rw [h1] at h; simp [bind, Except.bind] at h
  | ok r1 =>
    rw [h1, bind_ok] at h
    try simp only [] at h
    cases h2 : parsePrefix s r1.2 with
    | error e => rw [h2] at h; simp [bind, Except.bind] at h
    | ok r2 =>
      rw [h2, bind_ok] at h
      cases h3 : parseCommand s r2.2 with
      | error e => rw [h3] at h; simp [bind, Except.bind] at h
      | ok r3 =>
        rw [h3, bind_ok] at h
        try simp only [] at h
        cases hc : r3.1 with
        | none => rw [hc] at h; simp [pure, Except.pure] at h
        | some c =>
          rw [hc] at h
          try simp only [] at h
          cases h4 : parseChannel s r3.2 with
          | error e => rw [h4] at h; simp [bind, Except.bind] at h
          | ok r4 =>
            rw [h4, bind_ok] at h
            try simp only [] at h
            cases h5 : parseParams s r4.2 with
            | error e => rw [h5] at h; simp [bind, Except.bind] at h
            | ok r5 =>
              rw [h5, bind_ok] at h
              simp [pure, Except.pure] at h
              rw [← h]

/-- `tag` is a lookup in the list of tags, for any message whose tags can be listed. -/
theorem tag_of_tags {m : MsgRef} {l : List (Bytes × Bytes)} (hm : m.tags = .ok l) (t : Tag) :
    m.tag t = .ok (lookup t.asStr l) := by
  have : All₂ (Denotes m.checks m.src) m.parts.tags l := by
    unfold MsgRef.tags at hm
    generalize m.parts.tags = ps at hm
    induction ps generalizing l with
    | nil => simp [pure, Except.pure] at hm; subst hm; exact .nil
    | cons p ps ih =>
      rw [List.mapM_cons] at hm
      cases hp : p.get m.checks m.src with
      | error e => rw [hp] at hm; simp [bind, Except.bind] at hm
      | ok kv =>
        rw [hp, bind_ok] at hm
        cases hq : ps.mapM (fun p => p.get m.checks m.src) with
        | error e => rw [hq] at hm; simp [bind, Except.bind] at hm
        | ok kvs =>
          rw [hq, bind_ok] at hm
          simp [pure, Except.pure] at hm
          subst hm
          refine .cons ?_ (ih hq)
          unfold TagPair.get at hp
          cases hk : p.key m.checks with
          | error e => rw [hk] at hp; simp [bind, Except.bind] at hp
          | ok ks =>
            rw [hk, bind_ok] at hp
            cases hks : Span.get m.src ks with
            | error e => rw [hks] at hp; simp [bind, Except.bind] at hp
            | ok k =>
              rw [hks, bind_ok] at hp
              cases hv : p.value m.checks with
              | error e => rw [hv] at hp; simp [bind, Except.bind] at hp
              | ok vs =>
                rw [hv, bind_ok] at hp
                cases hvs : Span.get m.src vs with
                | error e => rw [hvs] at hp; simp [bind, Except.bind] at hp
                | ok v =>
                  rw [hvs, bind_ok] at hp
                  simp [pure, Except.pure] at hp
                  subst hp
                  constructor
                  · rw [hk, bind_ok, hks]
                  · rw [hv, bind_ok, hvs]
  have := tag_of_denotes this t.asStr
  unfold MsgRef.tag
  exact this

theorem parse_single_tag (b : Build) (k v : Bytes) (hk : Utf8 k) (hv : Utf8 v)
    (hk1 : EQS ∉ k) (hk2 : SP ∉ k) (hv1 : SEMI ∉ v) (hv2 : SP ∉ v)
    (hl : ([AT] ++ k ++ [EQS] ++ v ++ [SP] ++ b!"PING").length < 4294967296) :
    ∃ m, MsgRef.parse b ([AT] ++ k ++ [EQS] ++ v ++ [SP] ++ b!"PING") = .ok (some m) := by
  have hs : [AT] ++ k ++ [EQS] ++ v ++ [SP] ++ b!"PING" = AT :: ((k ++ EQS :: v) ++ SP :: b!"PING") := by
    simp
  rw [hs] at hl ⊢
  have hnosp : SP ∉ k ++ EQS :: v := by simp [hk2, hv2]; decide
  have hu : Utf8 (AT :: ((k ++ EQS :: v) ++ SP :: b!"PING")) :=
    .cons (by decide) ((hk.append (.cons (by decide) hv)).append (.of_ascii (by decide)))
  have htp : tagPairs (AT :: ((k ++ EQS :: v) ++ SP :: b!"PING")) = [(k, v)] := by
    unfold tagPairs
    rw [takeTags_space _ hnosp]
    exact splitTags_last hk1 hv1
  have ht : TagsTerminated b (AT :: ((k ++ EQS :: v) ++ SP :: b!"PING")) := by
    intro _ r hr
    simp at hr
    rw [← hr]; simp
  obtain ⟨r, hr, hn, _⟩ := parse_ok b hu hl (by rw [htp]; simp) ht
  cases r with
  | some m => exact ⟨m, hr⟩
  | none =>
    have := hn.1 rfl
    unfold line at this
    rw [takeTags_space _ hnosp] at this
    simp only [] at this
    rw [if_neg (by decide)] at this
    simp at this

theorem boundary_shift {A v B : Bytes} (hB : Utf8 B) {n : Nat} (hn : n ≤ v.length) (hv : Utf8 v) :
    isCharBoundary (A ++ (v ++ B)) (A.length + n) = isCharBoundary v n := by
  by_cases h0 : n = 0
  · subst h0
    rw [Nat.add_zero, boundary_append (hv.append hB)]
    rfl
  · by_cases hlt : n < v.length
    · obtain ⟨n', rfl⟩ : ∃ n', n = n' + 1 := ⟨n - 1, by omega⟩
      have e1 : (A ++ (v ++ B))[A.length + (n' + 1)]? = v[n' + 1]? := by
        rw [List.getElem?_append_right (by omega), Nat.add_sub_cancel_left,
          List.getElem?_append_left hlt]
      have e2 : v[n' + 1]? = some v[n' + 1] := List.getElem?_eq_getElem hlt
      unfold isCharBoundary
      rw [← Nat.add_assoc]
      simp only []
      rw [Nat.add_assoc, e1, e2]
    · have : n = v.length := by omega
      subst this
      rw [boundary_len]
      have := boundary_append (a := A ++ v) hB
      simpa using this

theorem tags_truncated (b : Build) (k v rest : Bytes) (hk : Utf8 k) (hv : Utf8 v) (hr : Utf8 rest)
    (hk1 : EQS ∉ k) (hk2 : SP ∉ k) (hk3 : k.length < 65536) (hv1 : SEMI ∉ v) (hv2 : SP ∉ v)
    (hl : ([AT] ++ k ++ [EQS] ++ v ++ [SP] ++ rest).length < 4294967296) (m : MsgRef)
    (hm : MsgRef.parse b ([AT] ++ k ++ [EQS] ++ v ++ [SP] ++ rest) = .ok (some m)) :
    m.tags = if isCharBoundary v (v.length % 65536) then .ok [(k, v.take (v.length % 65536))]
      else .error .slice := by
  have hs : [AT] ++ k ++ [EQS] ++ v ++ [SP] ++ rest = AT :: ((k ++ EQS :: v) ++ SP :: rest) := by
    simp
  rw [hs] at hl hm
  have hnosp : SP ∉ k ++ EQS :: v := by simp [hk2, hv2]; decide
  have hu : Utf8 (AT :: ((k ++ EQS :: v) ++ SP :: rest)) :=
    .cons (by decide) ((hk.append (.cons (by decide) hv)).append (.cons (by decide) hr))
  have htp : tagPairs (AT :: ((k ++ EQS :: v) ++ SP :: rest)) = [(k, v)] := by
    unfold tagPairs
    rw [takeTags_space _ hnosp]
    exact splitTags_last hk1 hv1
  have ht : TagsTerminated b (AT :: ((k ++ EQS :: v) ++ SP :: rest)) := by
    intro _ r hr
    simp at hr
    rw [← hr]; simp
  obtain ⟨r, hr', _, hp⟩ := parse_ok b hu hl (by rw [htp]; simp) ht
  rw [hm] at hr'
  simp at hr'
  subst hr'
  obtain ⟨hsrc, hchk, htags⟩ := hp m rfl
  rw [htp] at htags
  unfold MsgRef.tags
  rw [htags, hsrc]
  simp only [locate, List.mapM_cons, List.mapM_nil]
  have h1 : asU16 k.length = k.length := Nat.mod_eq_of_lt hk3
  have hle : v.length % 65536 ≤ v.length := Nat.mod_le _ _
  simp only [List.length_cons, List.length_append] at hl
  have hkey : (TagPair.mk (0 + 1) (asU16 k.length) (asU16 v.length)).key m.checks
      = .ok ⟨1, 1 + k.length⟩ := by
    unfold TagPair.key addU32
    simp only [h1]
    rw [if_pos (by omega), bind_ok]
    rfl
  have hval : (TagPair.mk (0 + 1) (asU16 k.length) (asU16 v.length)).value m.checks
      = .ok ⟨1 + k.length + 1, 1 + k.length + 1 + v.length % 65536⟩ := by
    unfold TagPair.value addU32 asU16
    unfold asU16 at h1
    simp only [h1]
    rw [if_pos (by omega), bind_ok, if_pos (by omega), bind_ok, if_pos (by omega), bind_ok]
    rfl
  have hks : Span.get (AT :: ((k ++ EQS :: v) ++ SP :: rest)) ⟨1, 1 + k.length⟩ = .ok k := by
    have hu2 : Utf8 (EQS :: (v ++ SP :: rest)) :=
      .cons (by decide) (hv.append (.cons (by decide) hr))
    have := strSlice_append (a := [AT]) (k := k) (b := EQS :: (v ++ SP :: rest)) (hk.append hu2) hu2
    simpa [Span.get] using this
  have hvs : Span.get (AT :: ((k ++ EQS :: v) ++ SP :: rest))
      ⟨1 + k.length + 1, 1 + k.length + 1 + v.length % 65536⟩ =
      if isCharBoundary v (v.length % 65536) then .ok (v.take (v.length % 65536))
      else .error .slice := by
    have hub : Utf8 (SP :: rest) := .cons (by decide) hr
    have e : AT :: ((k ++ EQS :: v) ++ SP :: rest) = (AT :: (k ++ [EQS])) ++ (v ++ SP :: rest) := by
      simp
    have hlen : (AT :: (k ++ [EQS])).length = 1 + k.length + 1 := by simp; omega
    unfold Span.get strSlice
    rw [e, ← hlen, boundary_append (hv.append hub), boundary_shift hub hle hv]
    rw [List.drop_left, Nat.add_sub_cancel_left, List.take_append_of_le_length hle]
    cases isCharBoundary v (v.length % 65536) <;> simp
  unfold TagPair.get
  rw [hkey, bind_ok, hks, bind_ok, hval, bind_ok, hvs]
  cases isCharBoundary v (v.length % 65536) <;> rfl

end Tmi.Model
