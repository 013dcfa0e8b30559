/-
The tag parsers, vectorised and scalar, run the same byte automaton; the automaton computes
`Spec.splitTags`.
-/
import Verif.Model.Tags
import Verif.Spec.Line
import Verif.Proofs.Search

namespace Tmi.Model
open Tmi.Spec

/-- One pass over the bytes of a tag section. -/
def runTags (checks : Bool) : Bytes → Nat → TState → List TagPair → R (TState × List TagPair)
  | [], _, st, tags => .ok (st, tags)
  | c :: rest, off, .key ks, tags =>
    if c = EQS then runTags checks rest (off + 1) (.value ks off) tags
    else runTags checks rest (off + 1) (.key ks) tags
  | c :: rest, off, .value ks ke, tags =>
    if c = SEMI then do
      let p ← mkPair checks ks ke off
      let tags ← pushTag tags p
      runTags checks rest (off + 1) (.key (off + 1)) tags
    else runTags checks rest (off + 1) (.value ks ke) tags

/-- What happens at the end of the section: a pending value is pushed. -/
def finishTags (checks : Bool) (stop : Nat) : TState × List TagPair → R (List TagPair)
  | (.value ks ke, tags) => do
    let p ← mkPair checks ks ke stop
    pushTag tags p
  | (.key _, tags) => .ok tags

theorem bind_ok {α β : Type} (a : α) (f : α → R β) : (Except.ok a >>= f) = f a := rfl
theorem bind_error {α β : Type} (e : Fault) (f : α → R β) :
    ((Except.error e : R α) >>= f) = Except.error e := rfl

theorem runTags_append (checks : Bool) : ∀ (a b : Bytes) (off : Nat) (st : TState)
    (tags : List TagPair), runTags checks (a ++ b) off st tags =
      runTags checks a off st tags >>= fun r => runTags checks b (off + a.length) r.1 r.2
  | [], b, off, st, tags => by simp [runTags, bind_ok]
  | c :: a, b, off, .key ks, tags => by
    simp only [List.cons_append, runTags]
    split <;>
    · rw [runTags_append checks a b]
      simp only [List.length_cons, Nat.add_assoc, Nat.add_comm 1]
  | c :: a, b, off, .value ks ke, tags => by
    simp only [List.cons_append, runTags]
    split
    · cases mkPair checks ks ke off with
      | error e => rfl
      | ok p =>
        simp only [bind_ok]
        cases pushTag tags p with
        | error e => rfl
        | ok tags =>
          simp only [bind_ok]
          rw [runTags_append checks a b]
          simp only [List.length_cons, Nat.add_assoc, Nat.add_comm 1]
    · rw [runTags_append checks a b]
      simp only [List.length_cons, Nat.add_assoc, Nat.add_comm 1]

theorem runTags_key_skip (checks : Bool) : ∀ (a : Bytes) (off ks : Nat) (tags : List TagPair),
    EQS ∉ a → runTags checks a off (.key ks) tags = .ok (.key ks, tags)
  | [], _, _, _, _ => rfl
  | c :: a, off, ks, tags, h => by
    rw [List.mem_cons, not_or] at h
    rw [runTags, if_neg (Ne.symm h.1)]
    exact runTags_key_skip checks a _ _ _ h.2

theorem runTags_value_skip (checks : Bool) : ∀ (a : Bytes) (off ks ke : Nat) (tags : List TagPair),
    SEMI ∉ a → runTags checks a off (.value ks ke) tags = .ok (.value ks ke, tags)
  | [], _, _, _, _, _ => rfl
  | c :: a, off, ks, ke, tags, h => by
    rw [List.mem_cons, not_or] at h
    rw [runTags, if_neg (Ne.symm h.1)]
    exact runTags_value_skip checks a _ _ _ _ h.2

/-! ### Chunks -/

theorem replicate_map_split {x : UInt8} {a b : Bytes} {j : Nat} (ha : x ∉ a) :
    List.replicate j false ++ (a ++ x :: b).map (· == x)
      = List.replicate (j + a.length) false ++ true :: b.map (· == x) := by
  rw [List.map_append, map_beq_not_mem ha, ← List.replicate_append_replicate, List.append_assoc]
  simp

theorem drop_lanes {x y : UInt8} {a b : Bytes} {j : Nat} :
    (List.replicate j false ++ (a ++ x :: b).map (· == y)).drop (j + a.length + 1)
      = b.map (· == y) := by
  rw [List.drop_append]
  have h1 : (List.replicate j false).drop (j + a.length + 1) = [] := by
    apply List.drop_eq_nil_of_le; simp; omega
  rw [h1, List.length_replicate, show j + a.length + 1 - j = a.length + 1 by omega, List.map_append,
    List.drop_append]
  simp

theorem chunkLoop_eq {B : Backend} (L : Lawful B) (checks : Bool) (offset : Nat) :
    ∀ (fuel j : Nat) (s : Bytes) (st : TState) (tags : List TagPair),
      j + s.length = B.size → s.length < fuel →
      chunkLoop checks B offset fuel
        (L.ofLanes (List.replicate j false ++ s.map (· == EQS)))
        (L.ofLanes (List.replicate j false ++ s.map (· == SEMI))) st tags
      = runTags checks s (offset + j) st tags := by
  intro fuel
  induction fuel with
  | zero => intro j s st tags _ h; omega
  | succ fuel ih =>
    intro j s st tags hlen hfuel
    cases st with
    | key ks =>
      by_cases hm : EQS ∈ s
      · obtain ⟨a, b, rfl, ha⟩ := mem_split hm
        simp only [List.length_append, List.length_cons] at hlen hfuel
        simp only [chunkLoop]
        rw [replicate_map_split ha, L.hasMatch_true _ _ (by simp; omega),
          L.firstMatch_eq _ _ (by simp; omega), ← replicate_map_split ha,
          L.clearTo_eq _ _ (by simp; omega) (by omega), bind_ok,
          L.clearTo_eq _ _ (by simp; omega) (by omega), bind_ok, drop_lanes, drop_lanes,
          L.asIndex_eq _ (by omega), ih _ _ _ _ (by omega) (by omega)]
        rw [runTags_append, runTags_key_skip checks a _ _ _ ha, bind_ok, runTags, if_pos rfl]
        simp [Nat.add_assoc]
      · simp only [chunkLoop]
        rw [map_beq_not_mem hm, List.replicate_append_replicate, hlen, L.hasMatch_false,
          runTags_key_skip checks s _ _ _ hm]
        rfl
    | value ks ke =>
      by_cases hm : SEMI ∈ s
      · obtain ⟨a, b, rfl, ha⟩ := mem_split hm
        simp only [List.length_append, List.length_cons] at hlen hfuel
        simp only [chunkLoop]
        rw [replicate_map_split ha, L.hasMatch_true _ _ (by simp; omega),
          L.firstMatch_eq _ _ (by simp; omega), ← replicate_map_split ha,
          L.clearTo_eq _ _ (by simp; omega) (by omega), bind_ok,
          L.clearTo_eq _ _ (by simp; omega) (by omega), bind_ok, drop_lanes, drop_lanes,
          L.asIndex_eq _ (by omega)]
        rw [runTags_append, runTags_value_skip checks a _ _ _ _ ha, bind_ok, runTags, if_pos rfl]
        simp only [Bool.not_true, Bool.false_eq_true, if_false]
        rw [← Nat.add_assoc]
        congr 1; funext p; congr 1; funext tags'
        rw [ih _ _ _ _ (by omega) (by omega)]
        simp [Nat.add_assoc]
      · simp only [chunkLoop]
        rw [map_beq_not_mem hm, List.replicate_append_replicate, hlen, L.hasMatch_false,
          runTags_value_skip checks s _ _ _ _ hm]
        rfl

theorem parseChunk_eq {B : Backend} (L : Lawful B) (checks : Bool) (offset : Nat) (chunk : Bytes)
    (st : TState) (tags : List TagPair) (hlen : chunk.length = B.size) :
    parseChunk checks B offset chunk st tags = runTags checks chunk offset st tags := by
  unfold parseChunk
  rw [L.movemask_eq _ _ hlen, L.movemask_eq _ _ hlen]
  have := chunkLoop_eq L checks offset (B.size + 1) 0 chunk st tags (by omega) (by omega)
  simpa using this

theorem runTags_zeros (checks : Bool) : ∀ (n off : Nat) (st : TState) (tags : List TagPair),
    runTags checks (List.replicate n 0) off st tags = .ok (st, tags)
  | 0, _, _, _ => rfl
  | n + 1, off, .key ks, tags => by
    rw [List.replicate_succ, runTags, if_neg (by decide)]
    exact runTags_zeros checks n _ _ _
  | n + 1, off, .value ks ke, tags => by
    rw [List.replicate_succ, runTags, if_neg (by decide)]
    exact runTags_zeros checks n _ _ _

theorem simdLoop_spec {B : Backend} (L : Lawful B) (checks : Bool) (rem : Slice) (off : Nat)
    (st : TState) (tags : List TagPair) (hoff : off ≤ rem.bytes.length)
    (hne : off < rem.bytes.length ∨ rem.bytes.length = 0) :
    (∃ off' st' tags', simdLoop checks B rem off st tags = .ok (off', st', tags') ∧
        off' ≤ rem.bytes.length ∧ rem.bytes.length ≤ off' + B.size ∧
        (off' < rem.bytes.length ∨ rem.bytes.length = 0) ∧
        runTags checks (rem.bytes.drop off) off st tags
          = runTags checks (rem.bytes.drop off') off' st' tags') ∨
    (∃ e, simdLoop checks B rem off st tags = .error e ∧
        runTags checks (rem.bytes.drop off) off st tags = .error e) := by
  induction off, st, tags using simdLoop.induct B rem with
  | case1 off st tags hlt ih =>
    have hw : ((rem.bytes.drop off).take B.size).length = B.size := window_length (by omega)
    rw [simdLoop, if_pos hlt]
    unfold loadUnaligned
    rw [if_pos (by omega), bind_ok, parseChunk_eq L checks _ _ _ _ hw]
    have hsplit : rem.bytes.drop off
        = (rem.bytes.drop off).take B.size ++ rem.bytes.drop (off + B.size) := by
      conv => lhs; rw [← List.take_append_drop B.size (rem.bytes.drop off)]
      rw [List.drop_drop]
    have hrun : runTags checks (rem.bytes.drop off) off st tags =
        runTags checks ((rem.bytes.drop off).take B.size) off st tags >>= fun r =>
          runTags checks (rem.bytes.drop (off + B.size)) (off + B.size) r.1 r.2 := by
      conv => lhs; rw [hsplit, runTags_append]
      rw [hw]
    rw [hrun]
    cases hr : runTags checks ((rem.bytes.drop off).take B.size) off st tags with
    | error e => right; exact ⟨e, rfl, rfl⟩
    | ok r =>
      rw [bind_ok, bind_ok]
      exact ih r.1 r.2 (by omega) (by omega)
  | case2 off st tags hge =>
    left
    rw [simdLoop, if_neg hge]
    exact ⟨off, st, tags, rfl, hoff, by omega, hne, rfl⟩

/-- The tag list computed from the text of a tag section. -/
def sectionTags (checks : Bool) (t : Bytes) : R (List TagPair) :=
  runTags checks t 0 (.key 0) [] >>= finishTags checks t.length

theorem strFrom_zero (s : Bytes) : strFrom s 0 = .ok s := by
  simp [strFrom, isCharBoundary]

theorem simdParse_space {B : Backend} (L : Lawful B) (checks : Bool) (addr : Nat) {t : Bytes}
    (rest : Bytes) (ht : SP ∉ t) :
    simdParse checks B addr (AT :: (t ++ SP :: rest)) 0
      = sectionTags checks t >>= fun tags => .ok (some tags, t.length + 2) := by
  unfold simdParse
  rw [strFrom_zero, bind_ok]
  simp only [if_true]
  rw [findFirst_eq L, bind_ok]
  simp only [find_append rest ht]
  rw [if_pos (by simp), bind_ok]
  have htk : (t ++ SP :: rest).take t.length = t := by simp
  rw [htk]
  unfold sectionTags
  rcases simdLoop_spec L checks ⟨addr + 0 + 1, t⟩ 0 (.key 0) [] (by simp)
      (by simp only []; omega) with
    ⟨off, st, tags, hl, h1, h2, h3, hrun⟩ | ⟨e, hl, hrun⟩
  · simp only [] at h1 h2 h3 hrun
    rw [hl, bind_ok]
    simp only []
    have hu : usub t.length off = .ok (t.length - off) := by unfold usub; rw [if_pos h1]
    rw [hu, bind_ok]
    simp only [List.drop_zero] at hrun
    rw [hrun]
    split
    · rename_i hpos
      unfold loadUnalignedRemainder
      simp only []
      rw [hu, bind_ok, if_pos (by omega), bind_ok, parseChunk_eq L checks _ _ _ _ (by simp; omega),
        runTags_append]
      cases runTags checks (t.drop off) off st tags with
      | error e => rfl
      | ok r =>
        rw [bind_ok, runTags_zeros, bind_ok, bind_ok]
        obtain ⟨st', tags'⟩ := r
        cases st' with
        | key ks => simp [finishTags, bind_ok, pure, Except.pure]
        | value ks ke =>
          simp only [finishTags]
          cases mkPair checks ks ke t.length with
          | error e => rfl
          | ok p =>
            simp only [bind_ok]
            cases pushTag tags' p with
            | error e => rfl
            | ok p => simp [bind_ok, pure, Except.pure]
    · rename_i hpos
      have ht0 : t = [] := by
        rcases h3 with h3 | h3
        · omega
        · simpa using h3
      subst ht0
      rw [simdLoop, if_neg (by simp)] at hl
      simp at hl
      obtain ⟨rfl, rfl, rfl⟩ := hl
      rfl
  · simp only [List.drop_zero] at hrun
    rw [hl, hrun]
    rfl

theorem simdParse_no_space {B : Backend} (L : Lawful B) (checks : Bool) (addr : Nat) {r : Bytes}
    (hr : SP ∉ r) : simdParse checks B addr (AT :: r) 0 = .ok (none, 0) := by
  unfold simdParse
  rw [strFrom_zero, bind_ok]
  simp only [if_true]
  rw [findFirst_eq L, bind_ok]
  simp only [find_none hr]
  rfl

theorem simdParse_no_at {B : Backend} (checks : Bool) (addr : Nat) {s : Bytes}
    (hs : ∀ r, s ≠ AT :: r) : simdParse checks B addr s 0 = .ok (none, 0) := by
  unfold simdParse
  rw [strFrom_zero, bind_ok]
  cases s with
  | nil => rfl
  | cons c r =>
    simp only []
    rw [if_neg (by rintro rfl; exact hs r rfl)]
    rfl

theorem scalarLoop_space (checks : Bool) (rest : Bytes) : ∀ (t : Bytes) (off : Nat) (st : TState)
    (tags : List TagPair), SP ∉ t →
    scalarLoop checks (t ++ SP :: rest) off st tags
      = runTags checks t off st tags >>= fun r =>
          finishTags checks (off + t.length) r >>= fun tags => .ok (off + t.length, tags)
  | [], off, .key ks, tags, _ => by
    rw [List.nil_append, scalarLoop, if_neg (by decide), if_neg (by decide), if_pos rfl]
    rfl
  | [], off, .value ks ke, tags, _ => by
    rw [List.nil_append, scalarLoop, if_neg (by decide), if_neg (by decide), if_pos rfl]
    simp only [runTags, bind_ok, finishTags]
    cases mkPair checks ks ke off with
    | error e => rfl
    | ok p => rfl
  | c :: t, off, st, tags, h => by
    rw [List.mem_cons, not_or] at h
    have ih := fun off st tags => scalarLoop_space checks rest t off st tags h.2
    have hlen : off + (c :: t).length = off + 1 + t.length := by simp; omega
    rw [hlen, List.cons_append, scalarLoop.eq_def]
    simp only []
    by_cases h1 : c = EQS
    · subst h1
      rw [if_pos rfl]
      cases st with
      | key ks => rw [runTags, if_pos rfl]; exact ih _ _ _
      | value ks ke => rw [runTags, if_neg (by decide)]; exact ih _ _ _
    · rw [if_neg h1]
      by_cases h2 : c = SEMI
      · subst h2
        rw [if_pos rfl]
        cases st with
        | key ks => rw [runTags, if_neg (by decide)]; exact ih _ _ _
        | value ks ke =>
          rw [runTags, if_pos rfl]
          simp only []
          cases mkPair checks ks ke off with
          | error e => rfl
          | ok p =>
            simp only [bind_ok]
            cases pushTag tags p with
            | error e => rfl
            | ok p => exact ih _ _ _
      · rw [if_neg h2, if_neg (Ne.symm h.1)]
        cases st with
        | key ks => rw [runTags, if_neg h1]; exact ih _ _ _
        | value ks ke => rw [runTags, if_neg h2]; exact ih _ _ _

theorem scalarParse_space (checks : Bool) {t : Bytes} (rest : Bytes) (ht : SP ∉ t) :
    scalarParse checks (AT :: (t ++ SP :: rest)) 0
      = sectionTags checks t >>= fun tags => .ok (some tags, t.length + 2) := by
  unfold scalarParse sectionTags
  rw [strFrom_zero, bind_ok]
  simp only [if_true]
  rw [scalarLoop_space checks rest t 0 _ _ ht]
  cases runTags checks t 0 (.key 0) [] with
  | error e => rfl
  | ok r =>
    simp only [bind_ok, Nat.zero_add]
    cases finishTags checks t.length r with
    | error e => rfl
    | ok tags => rfl

theorem scalarParse_no_at (checks : Bool) {s : Bytes}
    (hs : ∀ r, s ≠ AT :: r) : scalarParse checks s 0 = .ok (none, 0) := by
  unfold scalarParse
  rw [strFrom_zero, bind_ok]
  cases s with
  | nil => rfl
  | cons c r =>
    simp only []
    rw [if_neg (by rintro rfl; exact hs r rfl)]
    rfl

/-! ### The automaton computes `splitTags` -/

theorem cut_append {x : UInt8} : ∀ {a : Bytes} (b : Bytes), x ∉ a → cut x (a ++ x :: b) = some (a, b)
  | [], b, _ => by simp [cut]
  | y :: t, b, h => by
    rw [List.mem_cons, not_or] at h
    simp [cut, Ne.symm h.1, cut_append b h.2]

theorem cut_none {x : UInt8} : ∀ {a : Bytes}, x ∉ a → cut x a = none
  | [], _ => rfl
  | y :: t, h => by
    rw [List.mem_cons, not_or] at h
    simp [cut, Ne.symm h.1, cut_none h.2]

theorem cut_eq_some {x : UInt8} {s a b : Bytes} (h : cut x s = some (a, b)) :
    s = a ++ x :: b ∧ x ∉ a := by
  by_cases hm : x ∈ s
  · obtain ⟨a', b', rfl, ha⟩ := mem_split hm
    rw [cut_append b' ha] at h
    simp at h
    obtain ⟨rfl, rfl⟩ := h
    exact ⟨rfl, ha⟩
  · rw [cut_none hm] at h; simp at h

theorem cut_eq_none {x : UInt8} {s : Bytes} (h : cut x s = none) : x ∉ s := by
  intro hm
  obtain ⟨a', b', rfl, ha⟩ := mem_split hm
  rw [cut_append b' ha] at h
  simp at h

/-- Where the pairs of a section starting at offset `p` lie. -/
def locate (p : Nat) : List (Bytes × Bytes) → List TagPair
  | [] => []
  | (k, v) :: r => ⟨p + 1, asU16 k.length, asU16 v.length⟩ :: locate (p + k.length + v.length + 2) r

theorem mkPair_eq (checks : Bool) {p kl vl : Nat} (h : p + 1 < 4294967296) :
    mkPair checks p (p + kl) (p + kl + 1 + vl) = .ok ⟨p + 1, asU16 kl, asU16 vl⟩ := by
  have h1 : asU32 p = p := by unfold asU32; omega
  unfold mkPair
  have h2 : addU32 checks (asU32 p) 1 = .ok (p + 1) := by
    unfold addU32; rw [h1, if_pos h]
  have h3 : usub (p + kl) p = .ok kl := by
    unfold usub; rw [if_pos (by omega)]; congr 1; omega
  have h4 : usub (p + kl + 1 + vl) (p + kl + 1) = .ok vl := by
    unfold usub; rw [if_pos (by omega)]; congr 1; omega
  rw [h2, bind_ok, h3, bind_ok, h4, bind_ok]
  rfl

theorem runTags_spec (checks : Bool) (s : Bytes) : ∀ (p : Nat) (tags : List TagPair),
    p + s.length + 1 < 4294967296 → tags.length ≤ 128 →
    (runTags checks s p (.key p) tags >>= finishTags checks (p + s.length)) =
      if tags.length + (splitTags s).length ≤ 128 then .ok (tags ++ locate p (splitTags s))
      else .error .full := by
  induction s using splitTags.induct with
  | case1 s h =>
    intro p tags _ ht
    rw [splitTags]
    split
    · rw [runTags_key_skip checks s _ _ _ (cut_eq_none h), bind_ok]
      simp [finishTags, locate, ht]
    · rename_i h'; rw [h] at h'; simp at h'
  | case2 s k r h h' =>
    intro p tags hp ht
    obtain ⟨hs, hk⟩ := cut_eq_some h
    have hst : splitTags s = [(k, r)] := by
      rw [splitTags]
      split
      · rename_i h2; rw [h] at h2; simp at h2
      · rename_i k' r' h2
        rw [h] at h2; simp at h2
        obtain ⟨rfl, rfl⟩ := h2
        split
        · rfl
        · rename_i h3; rw [h'] at h3; simp at h3
    rw [hst]
    subst hs
    simp only [List.length_append, List.length_cons] at hp
    rw [runTags_append, runTags_key_skip checks k _ _ _ hk, bind_ok, runTags, if_pos rfl,
      runTags_value_skip checks r _ _ _ _ (cut_eq_none h'), bind_ok]
    simp only [finishTags]
    rw [show p + (k ++ EQS :: r).length = p + k.length + 1 + r.length by simp; omega,
      mkPair_eq checks (by omega), bind_ok]
    unfold pushTag
    simp only [List.length_cons, List.length_nil, locate]
    by_cases hc : tags.length < 128
    · rw [if_pos hc, if_pos (by omega)]
    · rw [if_neg hc, if_neg (by omega)]
  | case3 s k r h v r' h' ih =>
    intro p tags hp ht
    obtain ⟨hs, hk⟩ := cut_eq_some h
    obtain ⟨hr, hv⟩ := cut_eq_some h'
    have hst : splitTags s = (k, v) :: splitTags r' := by
      rw [splitTags]
      split
      · rename_i h2; rw [h] at h2; simp at h2
      · rename_i k' r'' h2
        rw [h] at h2; simp at h2
        obtain ⟨rfl, rfl⟩ := h2
        split
        · rename_i h3; rw [h'] at h3; simp at h3
        · rename_i v' r3 h3; rw [h'] at h3; simp at h3
          obtain ⟨rfl, rfl⟩ := h3
          rfl
    rw [hst]
    subst hr
    subst hs
    simp only [List.length_append, List.length_cons] at hp
    rw [runTags_append, runTags_key_skip checks k _ _ _ hk, bind_ok, runTags, if_pos rfl,
      runTags_append, runTags_value_skip checks v _ _ _ _ hv, bind_ok, runTags, if_pos rfl,
      mkPair_eq checks (by omega), bind_ok]
    unfold pushTag
    by_cases hc : tags.length < 128
    · rw [if_pos hc, bind_ok]
      have := ih (p + k.length + v.length + 2)
        (tags ++ [⟨p + 1, asU16 k.length, asU16 v.length⟩]) (by omega) (by simp; omega)
      rw [show p + (k ++ EQS :: (v ++ SEMI :: r')).length
          = p + k.length + v.length + 2 + r'.length by simp; omega,
        show p + k.length + 1 + v.length + 1 = p + k.length + v.length + 2 by omega, this]
      simp only [List.length_append, List.length_cons, List.length_nil, locate]
      by_cases hc' : tags.length + ((splitTags r').length + 1) ≤ 128
      · rw [if_pos hc', if_pos (by omega)]; simp
      · rw [if_neg hc', if_neg (by omega)]
    · rw [if_neg hc, if_neg (by simp; omega)]
      rfl

theorem sectionTags_eq (checks : Bool) (t : Bytes) (h : t.length + 1 < 4294967296) :
    sectionTags checks t =
      if (splitTags t).length ≤ 128 then .ok (locate 0 (splitTags t)) else .error .full := by
  have := runTags_spec checks t 0 [] (by omega) (by simp)
  simpa [sectionTags] using this

/-- All three backends are lawful. -/
def Arch.lawful : (a : Arch) → Lawful a.backend
  | .sse2 => sse2_lawful
  | .avx2 => avx2_lawful
  | .neon => neon_lawful

theorem parseTags_space (b : Build) {t : Bytes} (rest : Bytes) (ht : SP ∉ t) :
    parseTags b (AT :: (t ++ SP :: rest)) 0
      = sectionTags b.checks t >>= fun tags => .ok (some tags, t.length + 2) := by
  unfold parseTags
  split
  · exact scalarParse_space _ _ ht
  · exact simdParse_space (Arch.lawful _) _ _ _ ht

theorem parseTags_no_at (b : Build) {s : Bytes} (hs : ∀ r, s ≠ AT :: r) :
    parseTags b s 0 = .ok (none, 0) := by
  unfold parseTags
  split
  · exact scalarParse_no_at _ hs
  · exact simdParse_no_at _ _ hs

end Tmi.Model
