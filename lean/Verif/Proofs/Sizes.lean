/-
Lines whose keys or values are too long for the parser's 16-bit lengths.
-/
import Verif.Proofs.LineSpec
import Verif.Spec.Sizes

namespace Tmi.Model
open Tmi.Spec

/-- What a message exposes besides its tags. -/
structure RestOf (m : MsgRef) (l : Line) : Prop where
  prefix? : m.prefix? = .ok (l.prefix?.map fun p => ⟨nickOf p, userOf p, hostOf p⟩)
  command : m.command = .ok (commandOf l.command)
  rawChannel : optSlice m.src m.parts.channel = .ok l.channel
  params : m.params = .ok l.params
  text : m.text = .ok (l.params.map textOf)

theorem text_of_params {m : MsgRef} {p? : Option Bytes} (h : m.params = .ok p?)
    (hu : ∀ p, p? = some p → Utf8 p) : m.text = .ok (p?.map textOf) := by
  unfold MsgRef.params at h
  unfold MsgRef.text
  cases hsp : m.parts.params with
  | none =>
    rw [hsp] at h
    simp only [optSlice] at h
    injection h with h
    subst h
    rfl
  | some sp =>
    rw [hsp] at h
    simp only [optSlice] at h
    simp only []
    cases hg : sp.get m.src with
    | error e => rw [hg] at h; simp [bind, Except.bind] at h
    | ok params =>
      rw [hg, bind_ok] at h
      injection h with h
      subst h
      have hh4 := hu params rfl
      rw [bind_ok]
      simp only [Option.map_some]
      unfold textOf
      by_cases hm : COLON ∈ params
      · obtain ⟨a, c, rfl, ha⟩ := mem_split hm
        rw [find_append c ha, cut_append c ha]
        have huc := hh4.right (x := COLON) (by decide)
        have : strFrom (a ++ COLON :: c) (a.length + 1) = .ok c := by
          have := strFrom_append (a := a ++ [COLON]) huc
          simpa using this
        simp only [this, bind_ok]
        rfl
      · rw [find_none hm, cut_none hm]
        rfl

/-- Parsing a line below 4 GiB with at most 128 tags: everything but the tags is as in the grammar. -/
theorem parse_rest (b : Build) {s : Bytes} (hu : Utf8 s) (hl : s.length < 4294967296)
    (hc : (tagPairs s).length ≤ 128) (ht : TagsTerminated b s) :
    match line s with
    | none => MsgRef.parse b s = .ok none
    | some l => ∃ m, MsgRef.parse b s = .ok (some m) ∧ m.src = s ∧ m.checks = b.checks ∧
        m.parts.tags = locate 0 (tagPairs s) ∧ RestOf m l := by
  obtain ⟨tags?, pre1, ht1, ht2, ht3, ht4⟩ := parseTags_pos b hu hl hc ht
  have hl1 : (pre1 ++ (takeTags s).2).length < 4294967296 := by rw [ht2]; exact hl
  obtain ⟨rp, pre2, hp1, hp2, hp3, hp4⟩ := parsePrefix_eq ht3 hl1
  rw [ht2] at hp1 hp2 hp3
  have hl2 : (pre2 ++ (takePrefix (takeTags s).2).2).length < 4294967296 := by
    rw [hp3]; exact hl
  have hcm := parseCommand_eq hp4 hl2
  rw [hp3] at hcm
  unfold MsgRef.parse
  rw [ht1, bind_ok]
  simp only []
  rw [hp1, bind_ok]
  simp only []
  unfold line
  simp only []
  split at hcm
  · rename_i hcmd
    obtain ⟨pos, hcm⟩ := hcm
    rw [hcm, bind_ok, if_pos hcmd]
    rfl
  · rename_i hcmd
    obtain ⟨rc, pre3, hc1, hc2, hc3, hc4⟩ := hcm
    rw [if_neg hcmd, hc1, bind_ok]
    simp only []
    have hl3 : (pre3 ++ (takeToken (takePrefix (takeTags s).2).2).2).length < 4294967296 := by
      rw [hc3]; exact hl
    obtain ⟨ch, pre4, hh1, hh2, hh3, hh4⟩ := parseChannel_eq hc4 hl3
    rw [hc3] at hh1 hh2 hh3
    rw [hh1, bind_ok]
    simp only []
    have hl4 : (pre4 ++ (takeChannel (takeToken (takePrefix (takeTags s).2).2).2).2).length
        < 4294967296 := by
      rw [hh3]; exact hl
    obtain ⟨sp, hq1, hq2⟩ := parseParams_eq hh4 hl4
    rw [hh3] at hq1 hq2
    rw [hq1, bind_ok]
    refine ⟨_, rfl, rfl, rfl, ht4, hp2, hc2, hh2, hq2, ?_⟩
    refine text_of_params hq2 ?_
    intro p hp
    simp at hp
    rw [← hp.2]; exact hh4

theorem boundary_past {A t : Bytes} (hu : Utf8 t) (i : Nat) :
    isCharBoundary (A ++ t) (A.length + i) = isCharBoundary t i := by
  cases i with
  | zero => simpa [boundary_zero] using boundary_append (a := A) hu
  | succ i =>
    show isCharBoundary (A ++ t) (A.length + i + 1) = _
    unfold isCharBoundary
    simp only []
    rw [show A.length + i + 1 = A.length + (i + 1) by omega,
      List.getElem?_append_right (by omega), show A.length + (i + 1) - A.length = i + 1 by omega]
    cases t[i + 1]? with
    | some b => rfl
    | none =>
      show (A.length + (i + 1) == (A ++ t).length) = (i + 1 == t.length)
      rw [List.length_append]
      by_cases h : i + 1 = t.length
      · simp [h]
      · rw [beq_eq_false_iff_ne.2 h, beq_eq_false_iff_ne.2 (by omega)]

/-- Slicing at offsets counted from the end of `A`. -/
theorem strSlice_shift {A t : Bytes} (hu : Utf8 t) {i j : Nat} (hij : i ≤ j) :
    strSlice (A ++ t) (A.length + i) (A.length + j)
      = if isCharBoundary t i && isCharBoundary t j then .ok ((t.drop i).take (j - i))
        else .error .slice := by
  unfold strSlice
  rw [boundary_past hu, boundary_past hu]
  have h1 : A.length + i ≤ A.length + j := by omega
  have h2 : (A ++ t).drop (A.length + i) = t.drop i := by
    rw [List.drop_append, List.drop_eq_nil_of_le (by omega),
      show A.length + i - A.length = i by omega]
    rfl
  have h3 : A.length + j - (A.length + i) = j - i := by omega
  simp only [h1, decide_true, Bool.true_and, h2, h3]

/-- A stored pair denotes a key and a value, either of which may not be a string. -/
def DenotesShort (checks : Bool) (src : Bytes) (tp : TagPair) (kv : Option Bytes × Option Bytes) :
    Prop :=
  (tp.key checks >>= Span.get src) = (match kv.1 with | some k => .ok k | none => .error .slice) ∧
  (tp.value checks >>= Span.get src) = (match kv.2 with | some v => .ok v | none => .error .slice)

theorem denotesShort_pair (checks : Bool) {src A t : Bytes} {kl vl : Nat} (hsrc : src = A ++ t)
    (ht : Utf8 t) (hlen : src.length < 4294967296) (hle : kl + 1 + vl ≤ t.length) :
    DenotesShort checks src ⟨A.length, asU16 kl, asU16 vl⟩ (shortKey t kl, shortValue t kl vl) := by
  have hl : A.length + t.length < 4294967296 := by rw [hsrc] at hlen; simpa using hlen
  have h1 : asU16 kl ≤ kl := Nat.mod_le _ _
  have h2 : asU16 vl ≤ vl := Nat.mod_le _ _
  constructor
  · unfold TagPair.key addU32
    simp only []
    rw [if_pos (by omega), bind_ok]
    show Span.get src ⟨A.length, A.length + asU16 kl⟩ = _
    unfold Span.get
    simp only []
    have := strSlice_shift (A := A) ht (Nat.zero_le (asU16 kl))
    rw [Nat.add_zero] at this
    rw [hsrc, this]
    unfold shortKey
    rw [boundary_zero]
    simp only [Bool.true_and, Nat.sub_zero, List.drop_zero]
    show (if isCharBoundary t (kl % 65536) = true then _ else _) = _
    split <;> rfl
  · unfold TagPair.value addU32
    simp only []
    rw [if_pos (by omega), bind_ok, if_pos (by omega), bind_ok, if_pos (by omega), bind_ok]
    show Span.get src ⟨A.length + asU16 kl + 1, A.length + asU16 kl + 1 + asU16 vl⟩ = _
    unfold Span.get
    simp only []
    rw [hsrc, show A.length + asU16 kl + 1 = A.length + (asU16 kl + 1) by omega,
      show A.length + (asU16 kl + 1) + asU16 vl = A.length + (asU16 kl + 1 + asU16 vl) by omega,
      strSlice_shift ht (by omega), show asU16 kl + 1 + asU16 vl - (asU16 kl + 1) = asU16 vl by omega]
    unfold shortValue
    show (if (isCharBoundary t (kl % 65536 + 1) && isCharBoundary t (kl % 65536 + 1 + vl % 65536)) = true
      then _ else _) = _
    split <;> rfl

theorem locate_short (checks : Bool) (src : Bytes) (hlen : src.length < 4294967296) (C : Bytes)
    (hC : Utf8 C) (s : Bytes) : ∀ (A : Bytes) (p : Nat), src = A ++ (s ++ C) → Utf8 s →
    A.length = p + 1 → All₂ (DenotesShort checks src) (locate p (splitTags s)) (shortTags C s) := by
  induction s using splitTags.induct with
  | case1 s h =>
    intro A p hsrc hs hA
    have hst : splitTags s = [] := by
      rw [splitTags]
      split
      · rfl
      · rename_i h'; rw [h] at h'; simp at h'
    have hsh : shortTags C s = [] := by
      rw [shortTags]
      split
      · rfl
      · rename_i h'; rw [h] at h'; simp at h'
    rw [hst, hsh]
    exact .nil
  | case2 s k r h h' =>
    intro A p hsrc hs hA
    obtain ⟨he, hk⟩ := cut_eq_some h
    have hst : splitTags s = [(k, r)] := by
      rw [splitTags]
      split
      · rename_i h2; rw [h] at h2; simp at h2
      · rename_i k' r' h2
        rw [h] at h2; simp at h2
        obtain ⟨rfl, rfl⟩ := h2
        split
        · rfl
        · rename_i h3; rw [h'] at h3; simp at h3
    have hsh : shortTags C s
        = [(shortKey (s ++ C) k.length, shortValue (s ++ C) k.length r.length)] := by
      rw [shortTags]
      split
      · rename_i h2; rw [h] at h2; simp at h2
      · rename_i k' r' h2
        rw [h] at h2; simp at h2
        obtain ⟨rfl, rfl⟩ := h2
        split
        · rfl
        · rename_i h3; rw [h'] at h3; simp at h3
    rw [hst, hsh]
    refine .cons ?_ .nil
    rw [← hA]
    refine denotesShort_pair checks hsrc (hs.append hC) hlen ?_
    rw [he]
    simp; omega
  | case3 s k r h v r' h' ih =>
    intro A p hsrc hs hA
    obtain ⟨he, hk⟩ := cut_eq_some h
    obtain ⟨hr, hv⟩ := cut_eq_some h'
    have hst : splitTags s = (k, v) :: splitTags r' := by
      rw [splitTags]
      split
      · rename_i h2; rw [h] at h2; simp at h2
      · rename_i k' r'' h2
        rw [h] at h2; simp at h2
        obtain ⟨rfl, rfl⟩ := h2
        split
        · rename_i h3; rw [h'] at h3; simp at h3
        · rename_i v' r3 h3; rw [h'] at h3; simp at h3
          obtain ⟨rfl, rfl⟩ := h3
          rfl
    have hsh : shortTags C s = (shortKey (s ++ C) k.length, shortValue (s ++ C) k.length v.length)
        :: shortTags C r' := by
      rw [shortTags]
      split
      · rename_i h2; rw [h] at h2; simp at h2
      · rename_i k' r'' h2
        rw [h] at h2; simp at h2
        obtain ⟨rfl, rfl⟩ := h2
        split
        · rename_i h3; rw [h'] at h3; simp at h3
        · rename_i v' r3 h3; rw [h'] at h3; simp at h3
          obtain ⟨rfl, rfl⟩ := h3
          rfl
    rw [hst, hsh]
    have hu2 : Utf8 r' := by
      have := hs
      rw [he] at this
      have := (this.split (x := EQS) (by decide)).2
      rw [hr] at this
      exact (this.split (x := SEMI) (by decide)).2
    refine .cons ?_ ?_
    · rw [← hA]
      refine denotesShort_pair checks hsrc (hs.append hC) hlen ?_
      rw [he, hr]
      simp; omega
    · exact ih (A ++ (k ++ EQS :: (v ++ [SEMI]))) _ (by rw [hsrc, he, hr]; simp) hu2
        (by simp [hA]; omega)

theorem tags_of_short {checks : Bool} {src : Bytes} {tps : List TagPair}
    {kvs : List (Option Bytes × Option Bytes)} (h : All₂ (DenotesShort checks src) tps kvs) :
    tps.mapM (fun p => p.get checks src)
      = (match allStrings kvs with | some l => .ok l | none => .error .slice : R _) := by
  induction h with
  | nil => rfl
  | @cons tp kv tps kvs h1 h2 ih =>
    rw [List.mapM_cons, ih]
    obtain ⟨k, v⟩ := kv
    obtain ⟨ha, hb⟩ := h1
    simp only [] at ha hb
    have hg : tp.get checks src
        = (match (motive := Option Bytes → Option Bytes → R (Bytes × Bytes)) k, v with
          | some k, some v => .ok (k, v) | _, _ => .error .slice) := by
      unfold TagPair.get
      cases hk : tp.key checks with
      | error e =>
        rw [hk] at ha
        cases k with
        | some k => simp [bind, Except.bind] at ha
        | none => simp [bind, Except.bind] at ha ⊢; exact ha
      | ok ks =>
        rw [hk, bind_ok] at ha
        rw [bind_ok, ha]
        cases k with
        | none => rfl
        | some k =>
          simp only [bind_ok]
          cases hv : tp.value checks with
          | error e =>
            rw [hv] at hb
            cases v with
            | some v => simp [bind, Except.bind] at hb
            | none => simp [bind, Except.bind] at hb ⊢; exact hb
          | ok vs =>
            rw [hv, bind_ok] at hb
            rw [bind_ok, hb]
            cases v with
            | none => rfl
            | some v => rfl
    rw [hg]
    cases k with
    | none => rfl
    | some k =>
      cases v with
      | none => rfl
      | some v =>
        simp only [bind_ok, allStrings]
        cases allStrings kvs with
        | none => rfl
        | some l => rfl

theorem tag_of_short {checks : Bool} {src : Bytes} {tps : List TagPair}
    {kvs : List (Option Bytes × Option Bytes)} (h : All₂ (DenotesShort checks src) tps kvs)
    (key : Bytes) :
    (findTag checks src key tps >>= fun r =>
      match r with
      | none => (.ok none : R (Option Bytes))
      | some p => do return some (← Span.get src (← p.value checks)))
      = (match lookupShort key kvs with | some r => .ok r | none => .error .slice) := by
  induction h with
  | nil => rfl
  | @cons tp kv tps kvs h1 h2 ih =>
    obtain ⟨k, v⟩ := kv
    obtain ⟨ha, hb⟩ := h1
    simp only [] at ha hb
    rw [findTag]
    cases hk : tp.key checks with
    | error e =>
      rw [hk] at ha
      cases k with
      | some k => simp [bind, Except.bind] at ha
      | none => simp [bind, Except.bind, lookupShort] at ha ⊢; exact ha
    | ok ks =>
      rw [hk, bind_ok] at ha
      rw [bind_ok, ha]
      cases k with
      | none => rfl
      | some k =>
        simp only [bind_ok, lookupShort]
        by_cases hkey : k = key
        · simp only [hkey, beq_self_eq_true, if_true]
          show (do return some (← Span.get src (← tp.value checks))) = _
          cases hv : tp.value checks with
          | error e =>
            rw [hv] at hb
            cases v with
            | some v => simp [bind, Except.bind] at hb
            | none => simp [bind, Except.bind] at hb ⊢; exact hb
          | ok vs =>
            rw [hv, bind_ok] at hb
            rw [bind_ok, hb]
            cases v with
            | none => rfl
            | some v => rfl
        · simp only [hkey, if_false, beq_eq_false_iff_ne.2 hkey, Bool.false_eq_true]
          exact ih

theorem short_of_line (checks : Bool) {s : Bytes} (hu : Utf8 s) (hl : s.length < 4294967296) :
    All₂ (DenotesShort checks s) (locate 0 (tagPairs s)) (shortTagsOf s) := by
  unfold tagPairs shortTagsOf
  rcases tag_shape s with h | ⟨t, rest, rfl, h⟩ | ⟨r, rfl, h⟩
  · rw [takeTags_no_at h]; exact .nil
  · rw [takeTags_space rest h]
    have huu := (hu.tail (by decide)).split (x := SP) (by decide)
    exact locate_short checks _ hl (SP :: rest) (.cons (by decide) huu.2) t [AT] 0 rfl huu.1 rfl
  · rw [takeTags_no_space h]; exact .nil

end Tmi.Model
