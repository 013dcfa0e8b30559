/-
Refinement: the offset-based parser exposes exactly the pieces of `Spec.line`.
-/
import Verif.Proofs.Prefix
import Verif.Spec.Reads

namespace Tmi.Model
open Tmi.Spec

/-! ### Command -/

theorem find?_map_fst {α β : Type} (f : α → β) (p : β → Bool) : ∀ l : List α,
    (l.map f).find? p = (l.find? fun a => p (f a)).map f
  | [] => rfl
  | a :: l => by
    simp only [List.map_cons, List.find?_cons]
    cases p (f a) with
    | true => rfl
    | false => exact find?_map_fst f p l

/-- Rows of the literal table and known commands correspond one to one. -/
theorem commandTable_known : commandTable.map (fun row => (row.1, row.2.get [])) =
    knownCommands.map (fun c => (c.asStr, (Except.ok c : R Command))) := by decide

theorem rawCommand_get_const (src src' : Bytes) (c : RawCommand) (h : ∀ s, c ≠ .other s) :
    c.get src = c.get src' := by
  cases c <;> first | rfl | exact absurd rfl (h _)

theorem commandTable_not_other : ∀ row ∈ commandTable, ∀ s, row.2 ≠ .other s := by
  intro row hrow s hs
  have : (commandTable.all fun row => match row.2 with | .other _ => false | _ => true) = true := by
    decide
  rw [List.all_eq_true] at this
  have := this row hrow
  rw [hs] at this
  simp at this

theorem commandTable_find (src tok : Bytes) :
    (commandTable.find? fun row => row.1 == tok).map (fun row => row.2.get src)
      = (knownCommands.find? fun c => c.asStr == tok).map (fun c => (Except.ok c : R Command)) := by
  have h := congrArg (fun l => (l.find? fun (r : Bytes × R Command) => r.1 == tok).map (·.2))
    commandTable_known
  simp only [find?_map_fst, Option.map_map, Function.comp_def] at h
  rw [← h]
  cases hf : commandTable.find? fun row => row.1 == tok with
  | none => rfl
  | some row =>
    have hmem := List.mem_of_find?_eq_some hf
    simp only [Option.map_some]
    rw [rawCommand_get_const src [] row.2 (commandTable_not_other row hmem)]

theorem parseCommand_eq {pre s : Bytes} (hs : Utf8 s) (hlen : (pre ++ s).length < 4294967296) :
    if (takeToken s).1 = [] then ∃ pos, parseCommand (pre ++ s) pre.length = .ok (none, pos)
    else ∃ rc pre', parseCommand (pre ++ s) pre.length = .ok (some rc, pre'.length) ∧
      rc.get (pre ++ s) = .ok (commandOf (takeToken s).1) ∧
      pre' ++ (takeToken s).2 = pre ++ s ∧ Utf8 (takeToken s).2 := by
  -- common form of both cases of the `find`
  have key : ∀ (tok B rest pre' : Bytes) (stop next : Nat), pre ++ s = pre ++ (tok ++ B) →
      Utf8 tok → Utf8 B → Utf8 rest → stop = pre.length + tok.length → next = pre'.length →
      pre' ++ rest = pre ++ s →
      parseCommand (pre ++ s) pre.length = (do
        let token ← strSlice (pre ++ s) pre.length stop
        match commandTable.find? (fun row => row.1 == token) with
        | some row => return (some row.2, next)
        | none =>
          if !token.isEmpty then return (some (.other (Span.mk' pre.length stop)), next)
          else return (none, pre.length)) →
      (if tok = [] then ∃ pos, parseCommand (pre ++ s) pre.length = .ok (none, pos)
       else ∃ rc pre', parseCommand (pre ++ s) pre.length = .ok (some rc, pre'.length) ∧
        rc.get (pre ++ s) = .ok (commandOf tok) ∧ pre' ++ rest = pre ++ s ∧ Utf8 rest) := by
    intro tok B rest pre' stop next hsrc hut huB hur hstop hnext hpre' hf
    have hslice : strSlice (pre ++ s) pre.length stop = .ok tok := by
      rw [hstop, hsrc]; exact strSlice_append (hut.append huB) huB
    have hspan : (Span.mk' pre.length stop).get (pre ++ s) = .ok tok :=
      span_get hsrc hut huB hlen rfl hstop
    rw [hf, hslice, bind_ok]
    have ht := commandTable_find (pre ++ s) tok
    unfold commandOf
    cases hc : commandTable.find? fun row => row.1 == tok with
    | some row =>
      rw [hc] at ht
      cases hk : knownCommands.find? fun c => c.asStr == tok with
      | none => rw [hk] at ht; simp at ht
      | some c =>
        rw [hk] at ht
        simp at ht
        have hne : tok ≠ [] := by
          rintro rfl
          have : commandTable.find? (fun row => row.1 == ([] : Bytes)) = none := by decide
          rw [this] at hc
          simp at hc
        rw [if_neg hne]
        refine ⟨row.2, pre', ?_, ?_, hpre', hur⟩
        · rw [hnext]; rfl
        · rw [ht]; rfl
    | none =>
      rw [hc] at ht
      cases hk : knownCommands.find? fun c => c.asStr == tok with
      | some c => rw [hk] at ht; simp at ht
      | none =>
        cases tok with
        | nil => rw [if_pos rfl]; exact ⟨_, rfl⟩
        | cons c tok =>
          rw [if_neg (by simp)]
          refine ⟨.other (Span.mk' pre.length stop), pre', ?_, ?_, hpre', hur⟩
          · rw [hnext]; rfl
          · simp only [RawCommand.get, hspan, bind_ok]
            rfl
  by_cases hm : SP ∈ s
  · obtain ⟨a, b, rfl, ha⟩ := mem_split hm
    have hab := hs.split (x := SP) (by decide)
    have htok : takeToken (a ++ SP :: b) = (a, b) := by
      unfold takeToken; rw [cut_append b ha]
    rw [htok]
    exact key a (SP :: b) b (pre ++ (a ++ [SP])) (pre.length + a.length)
      (pre.length + a.length + 1) rfl hab.1 (.cons (by decide) hab.2) hab.2 rfl
      (by simp; omega) (by simp)
      (by unfold parseCommand; rw [strFrom_append hs, bind_ok, find_append b ha]; rfl)
  · have htok : takeToken s = (s, []) := by
      unfold takeToken; rw [cut_none hm]
    rw [htok]
    exact key s [] [] (pre ++ s) (pre ++ s).length _ (by simp) hs .nil .nil (by simp) rfl (by simp)
      (by unfold parseCommand; rw [strFrom_append hs, bind_ok, find_none hm]; rfl)

/-! ### Channel and params -/

theorem parseChannel_eq {pre s : Bytes} (hs : Utf8 s) (hlen : (pre ++ s).length < 4294967296) :
    ∃ sp pre', parseChannel (pre ++ s) pre.length = .ok (sp, pre'.length) ∧
      optSlice (pre ++ s) sp = .ok (takeChannel s).1 ∧
      pre' ++ (takeChannel s).2 = pre ++ s ∧ Utf8 (takeChannel s).2 := by
  unfold parseChannel
  rw [strFrom_append hs, bind_ok]
  cases s with
  | nil => exact ⟨none, pre, rfl, rfl, rfl, .nil⟩
  | cons c r =>
    by_cases hc : c = HASH
    · subst hc
      simp only [startsWith, beq_self_eq_true, if_true, bind_ok, takeChannel]
      by_cases hm : SP ∈ HASH :: r
      · obtain ⟨a, b, he, ha⟩ := mem_split hm
        rw [he] at hs hlen ⊢
        have hab := hs.split (x := SP) (by decide)
        have htok : takeToken (a ++ SP :: b) = (a, b) := by
          unfold takeToken; rw [cut_append b ha]
        rw [htok, find_append b ha]
        refine ⟨some (Span.mk' pre.length (pre.length + a.length)), pre ++ (a ++ [SP]), ?_, ?_, ?_,
          hab.2⟩
        · simp [pure, Except.pure]; omega
        · simp only [optSlice]
          rw [span_get (A := pre) (k := a) (B := SP :: b) rfl hab.1 (.cons (by decide) hab.2) hlen
            rfl rfl]
          rfl
        · simp
      · have htok : takeToken (HASH :: r) = (HASH :: r, []) := by
          unfold takeToken; rw [cut_none hm]
        rw [htok, find_none hm]
        refine ⟨some (Span.mk' pre.length (pre ++ HASH :: r).length), pre ++ HASH :: r, rfl, ?_,
          by simp, .nil⟩
        simp only [optSlice]
        rw [span_get (A := pre) (k := HASH :: r) (B := []) (by simp) hs .nil hlen rfl (by simp)]
        rfl
    · simp only [startsWith, takeChannel, if_neg hc]
      simp only [beq_eq_false_iff_ne.2 hc, Bool.false_eq_true, if_false]
      exact ⟨none, pre, rfl, rfl, rfl, hs⟩

theorem parseParams_eq {pre s : Bytes} (hs : Utf8 s) (hlen : (pre ++ s).length < 4294967296) :
    ∃ sp, parseParams (pre ++ s) pre.length = .ok sp ∧
      optSlice (pre ++ s) sp = .ok (if s = [] then none else some s) := by
  unfold parseParams
  rw [strFrom_append hs, bind_ok]
  cases s with
  | nil => exact ⟨none, rfl, rfl⟩
  | cons c r =>
    refine ⟨some (Span.mk' pre.length (pre ++ c :: r).length), rfl, ?_⟩
    simp only [optSlice]
    rw [span_get (A := pre) (k := c :: r) (B := []) (by simp) hs .nil hlen rfl (by simp)]
    rfl

/-! ### Tags -/

/-- Two lists of the same length are related element by element. -/
inductive All₂ {α β : Type} (r : α → β → Prop) : List α → List β → Prop
  | nil : All₂ r [] []
  | cons {a b as bs} : r a b → All₂ r as bs → All₂ r (a :: as) (b :: bs)

/-- A stored pair denotes a key and a value. -/
def Denotes (checks : Bool) (src : Bytes) (tp : TagPair) (kv : Bytes × Bytes) : Prop :=
  (tp.key checks >>= Span.get src) = .ok kv.1 ∧ (tp.value checks >>= Span.get src) = .ok kv.2

theorem denotes_pair (checks : Bool) {src A k v B : Bytes} (hsrc : src = A ++ (k ++ EQS :: (v ++ B)))
    (hk : Utf8 k) (hv : Utf8 v) (hB : Utf8 B) (hlen : src.length < 4294967296)
    (hkl : k.length < 65536) (hvl : v.length < 65536) :
    Denotes checks src ⟨A.length, asU16 k.length, asU16 v.length⟩ (k, v) := by
  have h1 : asU16 k.length = k.length := Nat.mod_eq_of_lt hkl
  have h2 : asU16 v.length = v.length := Nat.mod_eq_of_lt hvl
  have hl : A.length + (k.length + (v.length + B.length + 1)) < 4294967296 := by
    rw [hsrc] at hlen; simpa using hlen
  have hu : Utf8 (EQS :: (v ++ B)) := .cons (by decide) (hv.append hB)
  constructor
  · unfold TagPair.key addU32
    simp only [h1]
    rw [if_pos (by omega), bind_ok]
    show Span.get src ⟨A.length, A.length + k.length⟩ = .ok k
    unfold Span.get
    rw [hsrc]
    exact strSlice_append (hk.append hu) hu
  · unfold TagPair.value addU32
    simp only [h1, h2]
    rw [if_pos (by omega), bind_ok, if_pos (by omega), bind_ok, if_pos (by omega), bind_ok]
    show Span.get src ⟨A.length + k.length + 1, A.length + k.length + 1 + v.length⟩ = .ok v
    unfold Span.get
    have h3 : A.length + k.length + 1 = (A ++ (k ++ [EQS])).length := by simp; omega
    have h4 : src = (A ++ (k ++ [EQS])) ++ (v ++ B) := by rw [hsrc]; simp
    rw [h3, h4]
    exact strSlice_append (hv.append hB) hB

theorem locate_denotes (checks : Bool) (src : Bytes) (hlen : src.length < 4294967296) (C : Bytes)
    (hC : Utf8 C) (s : Bytes) : ∀ (A : Bytes) (p : Nat), src = A ++ (s ++ C) → Utf8 s →
    A.length = p + 1 → (∀ kv ∈ splitTags s, kv.1.length < 65536 ∧ kv.2.length < 65536) →
    All₂ (Denotes checks src) (locate p (splitTags s)) (splitTags s) := by
  induction s using splitTags.induct with
  | case1 s h =>
    intro A p hsrc hs hA hsz
    rw [splitTags]
    split
    · exact .nil
    · rename_i h'; rw [h] at h'; simp at h'
  | case2 s k r h h' =>
    intro A p hsrc hs hA hsz
    obtain ⟨he, hk⟩ := cut_eq_some h
    have hst : splitTags s = [(k, r)] := by
      rw [splitTags]
      split
      · rename_i h2; rw [h] at h2; simp at h2
      · rename_i k' r' h2
        rw [h] at h2; simp at h2
        obtain ⟨rfl, rfl⟩ := h2
        split
        · rfl
        · rename_i h3; rw [h'] at h3; simp at h3
    rw [hst] at hsz ⊢
    subst he
    have hu := hs.split (x := EQS) (by decide)
    have hz := hsz (k, r) (by simp)
    refine .cons ?_ .nil
    rw [← hA]
    exact denotes_pair checks (B := C) (by rw [hsrc]; simp) hu.1 hu.2 hC hlen hz.1 hz.2
  | case3 s k r h v r' h' ih =>
    intro A p hsrc hs hA hsz
    obtain ⟨he, hk⟩ := cut_eq_some h
    obtain ⟨hr, hv⟩ := cut_eq_some h'
    have hst : splitTags s = (k, v) :: splitTags r' := by
      rw [splitTags]
      split
      · rename_i h2; rw [h] at h2; simp at h2
      · rename_i k' r'' h2
        rw [h] at h2; simp at h2
        obtain ⟨rfl, rfl⟩ := h2
        split
        · rename_i h3; rw [h'] at h3; simp at h3
        · rename_i v' r3 h3; rw [h'] at h3; simp at h3
          obtain ⟨rfl, rfl⟩ := h3
          rfl
    rw [hst] at hsz ⊢
    subst hr
    subst he
    have hu := hs.split (x := EQS) (by decide)
    have hu2 := hu.2.split (x := SEMI) (by decide)
    have hz := hsz (k, v) (by simp)
    refine .cons ?_ ?_
    · rw [← hA]
      exact denotes_pair checks (B := SEMI :: (r' ++ C)) (by rw [hsrc]; simp) hu.1 hu2.1
        (.cons (by decide) (hu2.2.append hC)) hlen hz.1 hz.2
    · exact ih (A ++ (k ++ EQS :: (v ++ [SEMI]))) _ (by rw [hsrc]; simp) hu2.2
        (by simp [hA]; omega) (fun kv hkv => hsz kv (by simp [hkv]))

theorem tags_of_denotes {checks : Bool} {src : Bytes} {tps : List TagPair}
    {kvs : List (Bytes × Bytes)} (h : All₂ (Denotes checks src) tps kvs) :
    tps.mapM (fun p => p.get checks src) = (.ok kvs : R _) := by
  induction h with
  | nil => rfl
  | @cons tp kv tps kvs h1 h2 ih =>
    rw [List.mapM_cons, ih]
    have hg : tp.get checks src = .ok kv := by
      unfold TagPair.get
      obtain ⟨ha, hb⟩ := h1
      cases hk : tp.key checks with
      | error e => rw [hk] at ha; simp [bind, Except.bind] at ha
      | ok ks =>
        cases hv : tp.value checks with
        | error e => rw [hv] at hb; simp [bind, Except.bind] at hb
        | ok vs =>
          rw [hk, bind_ok] at ha
          rw [hv, bind_ok] at hb
          simp only [bind_ok, ha, hb]
          rfl
    rw [hg]
    rfl

theorem tag_of_denotes {checks : Bool} {src : Bytes} {tps : List TagPair}
    {kvs : List (Bytes × Bytes)} (h : All₂ (Denotes checks src) tps kvs) (key : Bytes) :
    (findTag checks src key tps >>= fun r =>
      match r with
      | none => (.ok none : R (Option Bytes))
      | some p => do return some (← Span.get src (← p.value checks))) = .ok (lookup key kvs) := by
  induction h with
  | nil => rfl
  | @cons tp kv tps kvs h1 h2 ih =>
    obtain ⟨ha, hb⟩ := h1
    rw [findTag]
    cases hk : tp.key checks with
    | error e => rw [hk] at ha; simp [bind, Except.bind] at ha
    | ok ks =>
      rw [hk, bind_ok] at ha
      simp only [bind_ok, ha, lookup]
      by_cases hkey : kv.1 = key
      · simp only [hkey, beq_self_eq_true, if_true]
        show (do return some (← Span.get src (← tp.value checks))) = _
        cases hv : tp.value checks with
        | error e => rw [hv] at hb; simp [bind, Except.bind] at hb
        | ok vs =>
          rw [hv, bind_ok] at hb
          simp only [bind_ok, hb]
          rfl
      · simp only [hkey, if_false, beq_eq_false_iff_ne.2 hkey, Bool.false_eq_true]
        exact ih

/-! ### Whole messages -/

theorem parseTags_eq (b : Build) {s : Bytes} (hu : Utf8 s) (hw : Within s) (ht : TagsTerminated b s) :
    ∃ tags? pre, parseTags b s 0 = .ok (tags?, pre.length) ∧ pre ++ (takeTags s).2 = s ∧
      Utf8 (takeTags s).2 ∧
      All₂ (Denotes b.checks s) (tags?.getD []) (tagPairs s) := by
  by_cases hat : ∃ r, s = AT :: r
  · obtain ⟨r, rfl⟩ := hat
    by_cases hsp : SP ∈ r
    · obtain ⟨t, rest, rfl, hnt⟩ := mem_split hsp
      have htk : takeTags (AT :: (t ++ SP :: rest)) = (some t, rest) := by
        unfold takeTags
        simp only [if_true, cut_append rest hnt]
      have htp : tagPairs (AT :: (t ++ SP :: rest)) = splitTags t := by
        unfold tagPairs; rw [htk]
      have hl := hw.len
      simp only [List.length_cons, List.length_append] at hl
      have hcount := hw.count
      rw [htp] at hcount
      have huu := (hu.tail (by decide)).split (x := SP) (by decide)
      refine ⟨some (locate 0 (splitTags t)), AT :: (t ++ [SP]), ?_, ?_, ?_, ?_⟩
      · rw [parseTags_space b rest hnt, sectionTags_eq b.checks t (by omega), if_pos hcount]
        simp [bind_ok]
      · rw [htk]; simp
      · rw [htk]; exact huu.2
      · rw [htp]
        simp only [Option.getD_some]
        refine locate_denotes b.checks _ hw.len (SP :: rest) (.cons (by decide) huu.2) t [AT] 0 rfl
          huu.1 rfl ?_
        intro kv hkv
        exact hw.sizes kv (by rw [htp]; exact hkv)
    · have htk : takeTags (AT :: r) = (none, AT :: r) := by
        unfold takeTags
        simp only [if_true, cut_none hsp]
      have htp : tagPairs (AT :: r) = [] := by
        unfold tagPairs; rw [htk]
      refine ⟨none, [], ?_, ?_, ?_, ?_⟩
      · unfold parseTags
        split
        · rename_i h; exact absurd (ht h r rfl) hsp
        · exact simdParse_no_space (Arch.lawful _) _ _ hsp
      · rw [htk]; rfl
      · rw [htk]; exact hu
      · rw [htp]; exact .nil
  · have htk : takeTags s = (none, s) := by
      unfold takeTags
      split
      · rename_i c r
        rw [if_neg (by rintro rfl; exact hat ⟨r, rfl⟩)]
      · rfl
    have htp : tagPairs s = [] := by
      unfold tagPairs; rw [htk]
    refine ⟨none, [], ?_, ?_, ?_, ?_⟩
    · exact parseTags_no_at b (fun r hr => hat ⟨r, hr⟩)
    · rw [htk]; rfl
    · rw [htk]; exact hu
    · rw [htp]; exact .nil

theorem parsePrefix_eq {pre s : Bytes} (hs : Utf8 s) (hlen : (pre ++ s).length < 4294967296) :
    ∃ rp pre', parsePrefix (pre ++ s) pre.length = .ok (rp, pre'.length) ∧
      (match rp with
        | none => (.ok none : R (Option Prefix))
        | some p => do return some (← p.get (pre ++ s)))
        = .ok ((takePrefix s).1.map fun p => ⟨nickOf p, userOf p, hostOf p⟩) ∧
      pre' ++ (takePrefix s).2 = pre ++ s ∧ Utf8 (takePrefix s).2 := by
  by_cases hc : ∃ r, s = COLON :: r
  · obtain ⟨r, rfl⟩ := hc
    by_cases hsp : SP ∈ r
    · obtain ⟨p, rest, rfl, hp⟩ := mem_split hsp
      have htk : takePrefix (COLON :: (p ++ SP :: rest)) = (some p, rest) := by
        unfold takePrefix
        simp only [if_true, cut_append rest hp]
      have huu := (hs.tail (by decide)).split (x := SP) (by decide)
      obtain ⟨rp, h1, h2⟩ := parsePrefix_some hp huu.1 huu.2 hlen
      refine ⟨some rp, pre ++ COLON :: (p ++ [SP]), h1, ?_, ?_, ?_⟩
      · simp only [h2, htk]; rfl
      · rw [htk]; simp
      · rw [htk]; exact huu.2
    · have htk : takePrefix (COLON :: r) = (none, COLON :: r) := by
        unfold takePrefix
        simp only [if_true, cut_none hsp]
      refine ⟨none, pre, parsePrefix_none hs (fun r' h => ?_), ?_, ?_, ?_⟩
      · simp at h; rw [← h]; exact hsp
      · rw [htk]; rfl
      · rw [htk]
      · rw [htk]; exact hs
  · have htk : takePrefix s = (none, s) := by
      unfold takePrefix
      split
      · rename_i c r
        rw [if_neg (by rintro rfl; exact hc ⟨r, rfl⟩)]
      · rfl
    refine ⟨none, pre, parsePrefix_none hs (fun r' h => absurd ⟨r', h⟩ hc), ?_, ?_, ?_⟩
    · rw [htk]; rfl
    · rw [htk]
    · rw [htk]; exact hs

/-- The refinement theorem for the borrowed message. -/
theorem parse_refines (b : Build) {s : Bytes} (hu : Utf8 s) (hw : Within s)
    (ht : TagsTerminated b s) :
    match line s with
    | none => MsgRef.parse b s = .ok none
    | some l => ∃ m, MsgRef.parse b s = .ok (some m) ∧ m.src = s ∧ m.checks = b.checks ∧
        Represents m l := by
  obtain ⟨tags?, pre1, ht1, ht2, ht3, ht4⟩ := parseTags_eq b hu hw ht
  have hl1 : (pre1 ++ (takeTags s).2).length < 4294967296 := by rw [ht2]; exact hw.len
  obtain ⟨rp, pre2, hp1, hp2, hp3, hp4⟩ := parsePrefix_eq ht3 hl1
  rw [ht2] at hp1 hp2 hp3
  have hl2 : (pre2 ++ (takePrefix (takeTags s).2).2).length < 4294967296 := by
    rw [hp3]; exact hw.len
  have hc := parseCommand_eq hp4 hl2
  rw [hp3] at hc
  unfold MsgRef.parse
  rw [ht1, bind_ok]
  simp only []
  rw [hp1, bind_ok]
  simp only []
  unfold line
  simp only []
  split at hc
  · rename_i hcmd
    obtain ⟨pos, hc⟩ := hc
    rw [hc, bind_ok, if_pos hcmd]
    rfl
  · rename_i hcmd
    obtain ⟨rc, pre3, hc1, hc2, hc3, hc4⟩ := hc
    rw [if_neg hcmd, hc1, bind_ok]
    simp only []
    have hl3 : (pre3 ++ (takeToken (takePrefix (takeTags s).2).2).2).length < 4294967296 := by
      rw [hc3]; exact hw.len
    obtain ⟨ch, pre4, hh1, hh2, hh3, hh4⟩ := parseChannel_eq hc4 hl3
    rw [hc3] at hh1 hh2 hh3
    rw [hh1, bind_ok]
    simp only []
    have hl4 : (pre4 ++ (takeChannel (takeToken (takePrefix (takeTags s).2).2).2).2).length
        < 4294967296 := by
      rw [hh3]; exact hw.len
    obtain ⟨sp, hq1, hq2⟩ := parseParams_eq hh4 hl4
    rw [hh3] at hq1 hq2
    rw [hq1, bind_ok]
    refine ⟨_, rfl, rfl, rfl, ?_⟩
    have htags : (match (takeTags s).1 with | some t => splitTags t | none => []) = tagPairs s := rfl
    constructor
    · exact tags_of_denotes ht4
    · intro t
      have := tag_of_denotes ht4 t.asStr
      unfold MsgRef.tag
      exact this
    · exact hp2
    · exact hc2
    · exact hh2
    · exact hq2
    · unfold MsgRef.text
      simp only []
      cases sp with
      | none =>
        simp only [optSlice] at hq2
        split at hq2
        · rename_i h0; rw [if_pos h0]; rfl
        · simp at hq2
      | some sp =>
        simp only [optSlice] at hq2
        cases hg : sp.get s with
        | error e => rw [hg] at hq2; simp [bind, Except.bind] at hq2
        | ok params =>
          rw [hg, bind_ok] at hq2
          split at hq2
          · simp [pure, Except.pure] at hq2
          · rename_i h0
            simp [pure, Except.pure] at hq2
            rw [if_neg h0]
            simp only [Option.map_some]
            rw [hg, bind_ok]
            rw [← hq2] at hh4 ⊢
            unfold textOf
            by_cases hm : COLON ∈ params
            · obtain ⟨a, c, rfl, ha⟩ := mem_split hm
              rw [find_append c ha, cut_append c ha]
              have huc := hh4.right (x := COLON) (by decide)
              have : strFrom (a ++ COLON :: c) (a.length + 1) = .ok c := by
                have := strFrom_append (a := a ++ [COLON]) huc
                simpa using this
              simp only [this, bind_ok]
              rfl
            · rw [find_none hm, cut_none hm]
              rfl

end Tmi.Model
