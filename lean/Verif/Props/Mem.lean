/-
Property C76: parsing has no undefined behaviour.
-/
import Verif.Proofs.MemPanics

namespace Tmi.Props
open Tmi.Model Tmi.Spec Tmi.Proofs

/-- What Rust leaves undefined: reading memory that was not written, reading outside of a slice (by an unchecked index or
a vector load), and an aligned vector load at an address that is not aligned. -/
def undefinedBehaviour : Mem.Stuck → Bool
  | .uninit | .outside | .panic .oob | .panic .misaligned => true
  | _ => false

/-! ## C76: no undefined behaviour -/

/-- C76: whatever the bytes, the build, the vector type and the address of the string, parsing a line has no undefined
behaviour; at worst it panics. -/
theorem C76_defined (b : Build) (s : Bytes) (e : Mem.Stuck) (h : Mem.parse b s = .error e) :
    undefinedBehaviour e = false := by
  rw [mem_parse] at h
  cases hp : MsgRef.parse b s with
  | ok r => rw [hp] at h; cases h
  | error f =>
    rw [hp] at h
    cases h
    rcases panics_parse b s f hp with rfl | rfl | rfl <;> rfl

example := C76_defined ⟨.scalar, true⟩ (b!"@id") (.panic .slice) (by decide +kernel)

/-- C76: and it does what the model of the other properties, which has no memory, says. -/
theorem C76_agrees (b : Build) (s : Bytes) :
    (∀ m, Mem.parse b s = .ok m ↔ MsgRef.parse b s = .ok m) ∧
    (∀ f, Mem.parse b s = .error (.panic f) ↔ MsgRef.parse b s = .error f) := by
  rw [mem_parse]
  cases MsgRef.parse b s <;> simp [Mem.ofR]

/-- C76: the array of tags, on its own: what was pushed is read back, and only that; the 129th push panics. -/
theorem C76_array (ts : List TagPair) :
    (ts.foldlM Mem.Arr.push .new >>= Mem.Arr.toVec) = if ts.length ≤ 128 then .ok ts else .error (.panic .full) := by
  have key : ∀ (ts : List TagPair) (a : Mem.Arr) (l : List TagPair), Holds a l →
      (ts.foldlM Mem.Arr.push a >>= Mem.Arr.toVec) = if l.length + ts.length ≤ 128 then .ok (l ++ ts) else .error (.panic .full) := by
    intro ts
    induction ts with
    | nil =>
      intro a l h
      show a.toVec = _
      rw [h.toVec, if_pos (by simpa using h.bound), List.append_nil]
    | cons t ts ih =>
      intro a l h
      have hp := Sim.push h t
      unfold pushTag at hp
      by_cases hl : l.length < 128
      · rw [if_pos hl] at hp
        obtain ⟨a', ha, h'⟩ := hp
        rw [List.foldlM_cons, ha]
        show (ts.foldlM Mem.Arr.push a' >>= Mem.Arr.toVec) = _
        rw [ih a' _ h']
        simp only [List.length_append, List.length_cons, List.length_nil, List.append_assoc, List.cons_append, List.nil_append]
        have e : l.length + (0 + 1) + ts.length = l.length + (ts.length + 1) := by omega
        rw [e]
      · rw [if_neg hl] at hp
        replace hp : a.push t = _ := hp
        rw [List.foldlM_cons, hp, if_neg (by simp; omega)]
        rfl
  have := key ts .new [] holds_new
  simpa using this

/-- C76: no read of a cell that was not written goes unreported: reading the array succeeds exactly if each of the cells
it reads was written, and then gives what was written there. -/
theorem C76_reported (a : Mem.Arr) (h : a.len ≤ a.data.length) :
    (∀ ts, a.toVec = .ok ts ↔ a.data.take a.len = ts.map some) ∧
    (a.toVec = .error .uninit ↔ none ∈ a.data.take a.len) := by
  have key : ∀ cs : List (Option TagPair), (∀ ts, Mem.readCells cs = .ok ts ↔ cs = ts.map some) ∧
      (Mem.readCells cs = .error .uninit ↔ none ∈ cs) := by
    intro cs
    induction cs with
    | nil => exact ⟨fun ts => by cases ts <;> simp [Mem.readCells], by simp [Mem.readCells]⟩
    | cons c r ih =>
      cases c with
      | none => exact ⟨fun ts => by cases ts <;> simp [Mem.readCells], by simp [Mem.readCells]⟩
      | some t =>
        obtain ⟨ih1, ih2⟩ := ih
        cases hr : Mem.readCells r with
        | ok l =>
          rw [hr] at ih1 ih2
          have hl := (ih1 l).1 rfl
          refine ⟨fun ts => ?_, ?_⟩
          · cases ts with
            | nil => simp [Mem.readCells, hr, bind, Except.bind, pure, Except.pure]
            | cons u ts =>
              have := ih1 ts
              simp [Mem.readCells, hr, bind, Except.bind, pure, Except.pure] at this ⊢
              rw [this]; exact fun _ => Iff.rfl
          · simp [Mem.readCells, hr, bind, Except.bind, pure, Except.pure] at ih2 ⊢
            exact ih2
        | error e =>
          rw [hr] at ih1 ih2
          refine ⟨fun ts => ?_, ?_⟩
          · cases ts with
            | nil => simp [Mem.readCells, hr, bind, Except.bind]
            | cons u ts =>
              have := ih1 ts
              simp [Mem.readCells, hr, bind, Except.bind] at this ⊢
              exact fun _ => this
          · simp [Mem.readCells, hr, bind, Except.bind] at ih2 ⊢
            exact ih2
  rw [Mem.Arr.toVec, if_pos h]
  exact key _

example := C76_reported ⟨[some ⟨1, 3, 5⟩, none], 1⟩ (by decide)

/-- Non-vacuity: an array read past its length is undefined behaviour in the model, and so is an index past the end. -/
example : (⟨List.replicate 128 none, 1⟩ : Mem.Arr).toVec = .error .uninit ∧ undefinedBehaviour .uninit = true := by
  decide +kernel
example : (Mem.parse ⟨.simd .sse2 7, true⟩ (b!"@id=1;x= :nick!user@host PRIVMSG #chan :hi")).toOption.isSome = true ∧
    (Mem.parse ⟨.scalar, true⟩ (b!"@id")) = .error (.panic .slice) := by decide +kernel

end Tmi.Props
