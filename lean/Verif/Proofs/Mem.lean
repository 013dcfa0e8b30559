/-
The parser over memory gives what the parser over values gives: its `unsafe` code reads only what was written, inside
of the slice.
-/
import Verif.Model.Mem

namespace Tmi.Proofs
open Model

/-- `x` goes as `y` does: the same panic, or related results. -/
def Sim {α β : Type} (Q : α → β → Prop) (x : Mem.U α) : R β → Prop
  | .ok b => ∃ a, x = .ok a ∧ Q a b
  | .error f => x = .error (.panic f)

section
variable {α β γ δ : Type}

theorem Sim.bind {Q : α → β → Prop} {S : γ → δ → Prop} {x : Mem.U α} {y : R β} {f : α → Mem.U γ} {g : β → R δ}
    (h : Sim Q x y) (hf : ∀ a b, Q a b → Sim S (f a) (g b)) : Sim S (x >>= f) (y >>= g) := by
  cases y with
  | ok b =>
    obtain ⟨a, rfl, hq⟩ := h
    exact hf a b hq
  | error e =>
    replace h : x = _ := h
    subst h
    exact rfl

theorem Sim.ok {Q : α → β → Prop} {a : α} {b : β} (h : Q a b) : Sim Q (.ok a) (.ok b) := ⟨a, rfl, h⟩

theorem Sim.ofR (y : R α) : Sim (· = ·) (Mem.ofR y) y := by
  cases y with
  | ok a => exact ⟨a, rfl, rfl⟩
  | error f => exact rfl

/-- With equal results the run over memory is the run over values. -/
theorem Sim.eq {x : Mem.U α} {y : R α} (h : Sim (· = ·) x y) : x = Mem.ofR y := by
  cases y with
  | ok a => obtain ⟨_, rfl, rfl⟩ := h; rfl
  | error f => exact h

/-- The first cells hold the values, the others nothing. -/
structure Holds (a : Mem.Arr) (tags : List TagPair) : Prop where
  len : a.len = tags.length
  bound : tags.length ≤ 128
  cells : a.data = tags.map some ++ List.replicate (128 - tags.length) none

theorem holds_new : Holds .new [] := ⟨rfl, by simp, by simp [Mem.Arr.new]⟩

theorem Holds.size {a : Mem.Arr} {tags : List TagPair} (h : Holds a tags) : a.data.length = 128 := by
  have := h.bound
  rw [h.cells, List.length_append, List.length_map, List.length_replicate]
  omega

theorem Sim.push {a : Mem.Arr} {tags : List TagPair} (h : Holds a tags) (t : TagPair) :
    Sim Holds (a.push t) (pushTag tags t) := by
  unfold Mem.Arr.push pushTag
  rw [h.size, h.len]
  by_cases hl : tags.length < 128
  · rw [if_pos hl, if_pos hl]
    refine .ok ⟨by simp, by simp; omega, ?_⟩
    have e : 128 - tags.length = (128 - (tags.length + 1)) + 1 := by omega
    rw [h.cells, e, List.replicate_succ, List.set_append_right _ _ (by simp)]
    simp
  · rw [if_neg hl, if_neg hl]
    exact rfl

theorem readCells_some : ∀ l : List TagPair, Mem.readCells (l.map some) = .ok l
  | [] => rfl
  | t :: l => by
    rw [List.map_cons, Mem.readCells, readCells_some l]
    rfl

theorem Holds.toVec {a : Mem.Arr} {tags : List TagPair} (h : Holds a tags) : a.toVec = .ok tags := by
  unfold Mem.Arr.toVec
  rw [h.size, h.len, if_pos h.bound, h.cells, List.take_append_of_le_length (by simp), List.take_of_length_le (by simp)]
  exact readCells_some tags

theorem Sim.scalarLoop (checks : Bool) (src : Bytes) : ∀ (rest : Bytes) (offset : Nat) (state : TState) (a : Mem.Arr)
    (tags : List TagPair), src.drop offset = rest → Holds a tags →
    Sim (fun x y => x.1 = y.1 ∧ Holds x.2 y.2) (Mem.scalarLoop checks src offset state a)
      (scalarLoop checks rest offset state tags)
  | [], offset, state, a, tags, hr, h => by
    rw [Mem.scalarLoop.eq_def, Model.scalarLoop, if_neg (by have := congrArg List.length hr; simp at this; omega)]
    exact .ok ⟨rfl, h⟩
  | c :: rest, offset, state, a, tags, hr, h => by
    have hl : offset < src.length := by
      have := congrArg List.length hr
      simp at this
      omega
    have hc : src[offset]? = some c := by
      have : (src.drop offset)[0]? = some c := by rw [hr]; rfl
      rwa [List.getElem?_drop, Nat.add_zero] at this
    have hr' : src.drop (offset + 1) = rest := by
      rw [← List.drop_drop, hr]; rfl
    have pair : ∀ ks ke, Sim Holds ((Mem.ofR (mkPair checks ks ke offset)) >>= fun p => a.push p)
        (mkPair checks ks ke offset >>= fun p => pushTag tags p) := fun ks ke =>
      .bind (.ofR _) fun p p' hp => by subst hp; exact .push h p
    rw [Mem.scalarLoop.eq_def, Model.scalarLoop.eq_def, if_pos hl, hc]
    dsimp only
    by_cases h1 : c = EQS
    · rw [if_pos h1, if_pos h1]
      cases state with
      | key ks => exact Sim.scalarLoop checks src rest _ _ _ _ hr' h
      | value ks ke => exact Sim.scalarLoop checks src rest _ _ _ _ hr' h
    · rw [if_neg h1, if_neg h1]
      by_cases h2 : c = SEMI
      · rw [if_pos h2, if_pos h2]
        cases state with
        | key ks => exact Sim.scalarLoop checks src rest _ _ _ _ hr' h
        | value ks ke =>
          refine .bind (.ofR _) fun p p' hp => ?_
          subst hp
          exact .bind (.push h p) fun a' t' h' => Sim.scalarLoop checks src rest _ _ _ _ hr' h'
      · rw [if_neg h2, if_neg h2]
        by_cases h3 : c = SP
        · rw [if_pos h3, if_pos h3]
          cases state with
          | key ks => exact .ok ⟨rfl, h⟩
          | value ks ke =>
            refine .bind (.ofR _) fun p p' hp => ?_
            subst hp
            exact .bind (.push h p) fun a' t' h' => .ok ⟨rfl, h'⟩
        · rw [if_neg h3, if_neg h3]
          exact Sim.scalarLoop checks src rest _ _ _ _ hr' h

theorem Sim.scalarParse (checks : Bool) (src : Bytes) (pos : Nat) :
    Sim (· = ·) (Mem.scalarParse checks src pos) (scalarParse checks src pos) := by
  unfold Mem.scalarParse Model.scalarParse
  refine .bind (.ofR _) fun s s' hs => ?_
  subst hs
  cases s with
  | nil => exact .ok rfl
  | cons c r =>
    dsimp only
    by_cases h : c = AT
    · rw [if_pos h, if_pos h]
      refine .bind (.scalarLoop checks r r 0 _ _ _ rfl holds_new) fun x y hxy => ?_
      obtain ⟨o, a⟩ := x
      obtain ⟨o', t⟩ := y
      obtain ⟨rfl, h⟩ := hxy
      show Sim _ (a.toVec >>= _) _
      rw [h.toVec]
      exact .ok rfl
    · rw [if_neg h, if_neg h]
      exact .ok rfl

theorem Sim.chunkLoop (checks : Bool) (B : Backend) (offset : Nat) : ∀ (fuel : Nat) (eqm semi : B.Mask) (state : TState)
    (a : Mem.Arr) (tags : List TagPair), Holds a tags →
    Sim (fun x y => x.1 = y.1 ∧ Holds x.2 y.2) (Mem.chunkLoop checks B offset fuel eqm semi state a)
      (chunkLoop checks B offset fuel eqm semi state tags)
  | 0, _, _, _, _, _, _ => rfl
  | fuel + 1, eqm, semi, state, a, tags, h => by
    cases state with
    | key ks =>
      rw [Mem.chunkLoop, Model.chunkLoop]
      dsimp only
      split
      · exact .ok ⟨rfl, h⟩
      · refine .bind (.ofR _) fun e e' he => ?_
        subst he
        refine .bind (.ofR _) fun s s' hs => ?_
        subst hs
        exact Sim.chunkLoop checks B offset fuel _ _ _ _ _ h
    | value ks ke =>
      rw [Mem.chunkLoop, Model.chunkLoop]
      dsimp only
      split
      · exact .ok ⟨rfl, h⟩
      · refine .bind (.ofR _) fun e e' he => ?_
        subst he
        refine .bind (.ofR _) fun s s' hs => ?_
        subst hs
        refine .bind (.ofR _) fun p p' hp => ?_
        subst hp
        exact .bind (.push h p) fun a' t' h' => Sim.chunkLoop checks B offset fuel _ _ _ _ _ h'

theorem Sim.simdLoop (checks : Bool) (B : Backend) (rem : Slice) (offset : Nat) (state : TState) (a : Mem.Arr)
    (tags : List TagPair) (h : Holds a tags) :
    Sim (fun x y => x.1 = y.1 ∧ x.2.1 = y.2.1 ∧ Holds x.2.2 y.2.2) (Mem.simdLoop checks B rem offset state a)
      (simdLoop checks B rem offset state tags) := by
  rw [Mem.simdLoop, Model.simdLoop]
  by_cases hl : offset + B.size < rem.bytes.length
  · rw [if_pos hl, if_pos hl]
    refine .bind (.ofR _) fun c c' hc => ?_
    subst hc
    refine .bind (Sim.chunkLoop checks B offset _ _ _ state a tags h) fun x y hxy => ?_
    obtain ⟨s, a'⟩ := x
    obtain ⟨s', t'⟩ := y
    obtain ⟨rfl, h'⟩ := hxy
    exact Sim.simdLoop checks B rem (offset + B.size) s a' t' h'
  · rw [if_neg hl, if_neg hl]
    exact .ok ⟨rfl, rfl, h⟩
termination_by rem.bytes.length - offset
decreasing_by have := B.size_pos; omega

theorem Sim.simdParse (checks : Bool) (B : Backend) (addr : Nat) (src : Bytes) (pos : Nat) :
    Sim (· = ·) (Mem.simdParse checks B addr src pos) (simdParse checks B addr src pos) := by
  unfold Mem.simdParse Model.simdParse
  refine .bind (.ofR _) fun s s' hs => ?_
  subst hs
  cases s with
  | nil => exact .ok rfl
  | cons c r =>
    dsimp only
    by_cases h : c = AT
    · rw [if_pos h, if_pos h]
      refine .bind (.ofR _) fun o o' ho => ?_
      subst ho
      cases o with
      | none => exact .ok rfl
      | some stop =>
        dsimp only
        by_cases hst : stop ≤ r.length
        · rw [if_pos hst, if_pos hst]
          refine .bind (Q := (· = ·)) (.ok rfl) fun rem rem' hrem => ?_
          subst hrem
          refine .bind (.simdLoop checks B rem 0 _ _ _ holds_new) fun x y hxy => ?_
          obtain ⟨o, st, a⟩ := x
          obtain ⟨o', st', t⟩ := y
          obtain ⟨h1, h2, h3⟩ := hxy
          dsimp only at h1 h2 h3
          subst h1 h2
          dsimp only
          refine .bind (.ofR _) fun l l' hl => ?_
          subst hl
          have done : ∀ (a : Mem.Arr) (t : List TagPair), Holds a t →
              Sim (· = ·) (a.toVec >>= fun v => (pure (some v, pos + (stop + 2)) : Mem.U (Option (List TagPair) × Nat)))
                (pure (some t, pos + (stop + 2))) := by
            intro a t h
            rw [h.toVec]
            exact .ok rfl
          split
          · refine .bind (.ofR _) fun c c' hc => ?_
            subst hc
            refine .bind (Sim.chunkLoop checks B _ _ _ _ _ _ _ h3) fun x y hxy => ?_
            obtain ⟨s, a'⟩ := x
            obtain ⟨s', t'⟩ := y
            obtain ⟨h1, h'⟩ := hxy
            dsimp only at h1 h'
            subst h1
            cases s with
            | key ks => exact done _ _ h'
            | value ks ke =>
              refine .bind (.ofR _) fun p p' hp => ?_
              subst hp
              exact .bind (.push h' p) fun a t h => done a t h
          · exact done _ _ h3
        · rw [if_neg hst, if_neg hst]
          exact rfl
    · rw [if_neg h, if_neg h]
      exact .ok rfl

theorem mem_parseTags (b : Build) (src : Bytes) (pos : Nat) : Sim (· = ·) (Mem.parseTags b src pos) (parseTags b src pos) := by
  unfold Mem.parseTags parseTags
  cases b.tagParser with
  | scalar => exact .scalarParse _ _ _
  | simd arch addr => exact .simdParse _ _ _ _ _

theorem mem_prefixLoop (bytes : Bytes) (start : Nat) : ∀ (rest : Bytes) (i hostStart : Nat) (nick : Option Span)
    (nickEnd : Option Nat) (user : Option Span), bytes.drop i = rest →
    Mem.prefixLoop bytes start i hostStart nick nickEnd user = .ok (prefixLoop start rest i hostStart nick nickEnd user)
  | [], i, hs, nick, ne, user, hr => by
    rw [Mem.prefixLoop.eq_def, prefixLoop, if_neg (by have := congrArg List.length hr; simp at this; omega)]
  | c :: rest, i, hs, nick, ne, user, hr => by
    have hl : i < bytes.length := by
      have := congrArg List.length hr
      simp at this
      omega
    have hc : bytes[i]? = some c := by
      have : (bytes.drop i)[0]? = some c := by rw [hr]; rfl
      rwa [List.getElem?_drop, Nat.add_zero] at this
    have hr' : bytes.drop (i + 1) = rest := by
      rw [← List.drop_drop, hr]; rfl
    rw [Mem.prefixLoop.eq_def, prefixLoop.eq_def, if_pos hl, hc]
    dsimp only
    by_cases h1 : c = SP
    · rw [if_pos h1, if_pos h1]
    · rw [if_neg h1, if_neg h1]
      by_cases h2 : c = AT
      · rw [if_pos h2, if_pos h2]
        cases ne with
        | some ne => exact mem_prefixLoop bytes start rest _ _ _ _ _ hr'
        | none => exact mem_prefixLoop bytes start rest _ _ _ _ _ hr'
      · rw [if_neg h2, if_neg h2]
        by_cases h3 : c = BANG
        · rw [if_pos h3, if_pos h3]
          exact mem_prefixLoop bytes start rest _ _ _ _ _ hr'
        · rw [if_neg h3, if_neg h3]
          exact mem_prefixLoop bytes start rest _ _ _ _ _ hr'

theorem mem_parsePrefix (src : Bytes) (pos : Nat) : Sim (· = ·) (Mem.parsePrefix src pos) (parsePrefix src pos) := by
  unfold Mem.parsePrefix parsePrefix
  refine .bind (.ofR _) fun s s' hs => ?_
  subst hs
  split
  · exact .ok rfl
  · dsimp only
    rw [mem_prefixLoop src _ _ _ _ _ _ _ rfl]
    show Sim _ (match prefixLoop _ _ _ _ _ _ _ with
      | some (p, pos') => _
      | none => _) _
    cases prefixLoop (pos + 1) (src.drop (pos + 1)) (pos + 1) (pos + 1) none none none with
    | none => exact .ok rfl
    | some x => exact .ok rfl

theorem mem_parse (b : Build) (src : Bytes) : Mem.parse b src = Mem.ofR (MsgRef.parse b src) := by
  refine Sim.eq ?_
  unfold Mem.parse MsgRef.parse
  refine .bind (mem_parseTags b src 0) fun x x' hx => ?_
  subst hx
  refine .bind (mem_parsePrefix src _) fun y y' hy => ?_
  subst hy
  refine .bind (.ofR _) fun z z' hz => ?_
  subst hz
  obtain ⟨c, p⟩ := z
  cases c with
  | none => exact .ok rfl
  | some c =>
    refine .bind (.ofR _) fun u u' hu => ?_
    subst hu
    refine .bind (.ofR _) fun v v' hv => ?_
    subst hv
    exact .ok rfl

end

end Tmi.Proofs
