/-
Helper lemmas about the counting parser: it computes what the parser computes, and how many steps it takes.
-/
import Verif.Model.Steps

namespace Tmi.Proofs
open Model

namespace StepsP
open Model.Steps (Run pay)

theorem out_bind {α β : Type} (x : Run α) (f : α → Run β) : (x >>= f).out = x.out >>= fun a => (f a).out := by
  show (Run.bind x f).out = _
  unfold Run.bind
  cases x.out <;> rfl

theorem out_pure {α : Type} (a : α) : (pure a : Run α).out = .ok a := rfl
theorem out_pay {α : Type} (n : Nat) (x : R α) : (pay n x).out = x := rfl
theorem out_ite {α : Type} (c : Prop) [Decidable c] (x y : Run α) :
    (if c then x else y).out = if c then x.out else y.out := by split <;> rfl
theorem ok_bind {α β : Type} (a : α) (f : α → R β) : (Except.ok a >>= f : R β) = f a := rfl

/-- At most so many steps, and a result with a property. -/
def Within {α : Type} (x : Run α) (n : Nat) (P : α → Prop) : Prop := x.steps ≤ n ∧ ∀ a, x.out = .ok a → P a

theorem Within.bind {α β : Type} {x : Run α} {f : α → Run β} {n m k : Nat} {P : α → Prop} {Q : β → Prop}
    (h : Within x n P) (hf : ∀ a, x.out = .ok a → P a → Within (f a) m Q) (hk : n + m ≤ k) : Within (x >>= f) k Q := by
  show Within (Run.bind x f) k Q
  unfold Run.bind Within
  obtain ⟨h1, h2⟩ := h
  cases e : x.out with
  | error _ => exact ⟨by show x.steps ≤ k; omega, fun a h => by cases h⟩
  | ok a =>
    obtain ⟨h3, h4⟩ := hf a e (h2 a e)
    exact ⟨by show x.steps + (f a).steps ≤ k; omega, h4⟩

theorem Within.pure {α : Type} {a : α} {n : Nat} {P : α → Prop} (h : P a) : Within (pure a : Run α) n P :=
  ⟨Nat.zero_le _, fun b e => by cases e; exact h⟩

theorem Within.pay {α : Type} {x : R α} {c n : Nat} {P : α → Prop} (hc : c ≤ n) (h : ∀ a, x = .ok a → P a) :
    Within (pay c x) n P := ⟨hc, h⟩

theorem Within.tick {β : Type} {f : Unit → Run β} {c m k : Nat} {Q : β → Prop} (hf : Within (f ()) m Q)
    (hk : c + m ≤ k) : Within (Steps.pay c (.ok ()) >>= f) k Q :=
  Within.bind (P := fun _ => True) (.pay (Nat.le_refl c) fun _ _ => trivial) (fun _ _ _ => hf) hk

theorem Within.free {α β : Type} {x : R α} {f : α → Run β} {k : Nat} {Q : β → Prop}
    (hf : ∀ a, x = .ok a → Within (f a) k Q) : Within (Steps.pay 0 x >>= f) k Q :=
  Within.bind (P := fun _ => True) (.pay (Nat.le_refl 0) fun _ _ => trivial) (fun a h _ => hf a h) (Nat.le_of_eq (Nat.zero_add k))

theorem Within.weaken {α : Type} {x : Run α} {n m : Nat} {P Q : α → Prop} (h : Within x n P) (hn : n ≤ m)
    (hp : ∀ a, P a → Q a) : Within x m Q := ⟨Nat.le_trans h.1 hn, fun a e => hp a (h.2 a e)⟩

theorem Within.ite {α : Type} {c : Prop} [Decidable c] {x y : Run α} {n : Nat} {P : α → Prop}
    (hx : c → Within x n P) (hy : ¬ c → Within y n P) : Within (if c then x else y) n P := by
  by_cases h : c
  · rw [if_pos h]; exact hx h
  · rw [if_neg h]; exact hy h

/-! ### What is computed -/

theorem find_out (x : UInt8) (s : Bytes) : (Steps.find x s).out = .ok (find x s) := by
  induction s with
  | nil => rfl
  | cons y t ih =>
    rw [Steps.find, find]
    simp only [out_bind, out_pay, ok_bind, out_ite, out_pure, ih]
    split <;> rfl

theorem scalarLoop_out (checks : Bool) (s : Bytes) : ∀ (offset : Nat) (st : TState) (tags : List TagPair),
    (Steps.scalarLoop checks s offset st tags).out = scalarLoop checks s offset st tags := by
  induction s with
  | nil => intros; rfl
  | cons c r ih =>
    intro offset st tags
    cases st <;> rw [Steps.scalarLoop.eq_def, scalarLoop.eq_def] <;> simp only [out_bind, out_pay, ok_bind, out_ite, out_pure, ih]

theorem scalarParse_out (checks : Bool) (s : Bytes) (pos : Nat) :
    (Steps.scalarParse checks s pos).out = scalarParse checks s pos := by
  unfold Steps.scalarParse scalarParse
  rw [out_bind, out_pay]
  congr 1
  funext s
  cases s with
  | nil => rfl
  | cons c r =>
    simp only [out_ite, out_bind, out_pure, scalarLoop_out, out_pay]
    rfl

theorem scalarFind_out (byte : UInt8) (s : Bytes) : ∀ i, (Steps.scalarFind byte s i).out = .ok (scalarFind byte s i) := by
  induction s with
  | nil => intro i; rfl
  | cons c r ih =>
    intro i
    rw [Steps.scalarFind, scalarFind]
    simp only [out_bind, out_pay, ok_bind, out_ite, out_pure, ih]
    split <;> rfl

theorem findUnrolled_out (B : Backend) (d : Slice) (byte : UInt8) (offset : Nat) :
    (Steps.findUnrolled B d byte offset).out = findUnrolled B d byte offset := by
  fun_induction findUnrolled B d byte offset with
  | case1 offset h ih =>
    rw [Steps.findUnrolled, if_pos h]
    simp only [out_bind, out_pay, ok_bind]
    congr 1; funext c0; congr 1; funext c1; congr 1; funext c2; congr 1; funext c3
    cases chunkMatch B c0 byte with
    | some p => rfl
    | none =>
      cases chunkMatch B c1 byte with
      | some p => rfl
      | none =>
        cases chunkMatch B c2 byte with
        | some p => rfl
        | none =>
          cases chunkMatch B c3 byte with
          | some p => rfl
          | none => exact ih
  | case2 offset h => rw [Steps.findUnrolled, if_neg h]; rfl

theorem findAligned_out (B : Backend) (d : Slice) (byte : UInt8) (offset : Nat) :
    (Steps.findAligned B d byte offset).out = findAligned B d byte offset := by
  fun_induction findAligned B d byte offset with
  | case1 offset h ih =>
    rw [Steps.findAligned, if_pos h]
    simp only [out_bind, out_pay, ok_bind]
    congr 1; funext c
    cases chunkMatch B c byte with
    | some p => rfl
    | none => exact ih
  | case2 offset h => rw [Steps.findAligned, if_neg h]; rfl

theorem findFirst_out (B : Backend) (d : Slice) (byte : UInt8) :
    (Steps.findFirst B d byte).out = findFirst B d byte := by
  unfold Steps.findFirst findFirst
  rw [out_ite, scalarFind_out]
  congr 1
  simp only [out_bind, out_pay, ok_bind]
  congr 1; funext c
  cases chunkMatch B c byte with
  | some p => rfl
  | none =>
    simp only [out_bind, out_pay, findUnrolled_out]
    congr 1; funext a; congr 1; funext o; congr 1; funext ph
    cases ph with
    | found i => rfl
    | next o =>
      simp only [out_bind, findAligned_out]
      congr 1; funext ph
      cases ph with
      | found i => rfl
      | next o =>
        simp only [out_ite, out_bind, out_pay, ok_bind, out_pure]
        split
        · congr 1; funext o; congr 1; funext c
          cases chunkMatch B c byte <;> rfl
        · rfl

theorem chunkLoop_out (checks : Bool) (B : Backend) (offset : Nat) : ∀ (fuel : Nat) (e s : B.Mask) (st : TState)
    (tags : List TagPair), (Steps.chunkLoop checks B offset fuel e s st tags).out =
      chunkLoop checks B offset fuel e s st tags := by
  intro fuel
  induction fuel with
  | zero => intros; rfl
  | succ fuel ih =>
    intro e s st tags
    cases st <;> rw [Steps.chunkLoop.eq_def, chunkLoop.eq_def] <;> simp only [out_bind, out_pay, ok_bind, out_ite, out_pure, ih]

theorem parseChunk_out (checks : Bool) (B : Backend) (offset : Nat) (chunk : Bytes) (st : TState) (tags : List TagPair) :
    (Steps.parseChunk checks B offset chunk st tags).out = parseChunk checks B offset chunk st tags := by
  unfold Steps.parseChunk parseChunk
  simp only [out_bind, out_pay, ok_bind, chunkLoop_out]

theorem simdLoop_out (checks : Bool) (B : Backend) (rem : Slice) (offset : Nat) (st : TState) (tags : List TagPair) :
    (Steps.simdLoop checks B rem offset st tags).out = simdLoop checks B rem offset st tags := by
  fun_induction simdLoop checks B rem offset st tags with
  | case1 offset st tags h ih =>
    rw [Steps.simdLoop, if_pos h]
    simp only [out_bind, out_pay, parseChunk_out]
    congr 1; funext c; congr 1; funext a
    exact ih a.1 a.2
  | case2 offset st tags h => rw [Steps.simdLoop, if_neg h]; rfl

theorem simdParse_out (checks : Bool) (B : Backend) (addr : Nat) (s : Bytes) (pos : Nat) :
    (Steps.simdParse checks B addr s pos).out = simdParse checks B addr s pos := by
  unfold Steps.simdParse simdParse
  rw [out_bind, out_pay]
  congr 1; funext s
  cases s with
  | nil => rfl
  | cons c r =>
    simp only [out_ite, out_bind, findFirst_out]
    split
    · congr 1; funext o
      cases o with
      | none => rfl
      | some stop =>
        simp only [out_bind, out_pay, simdLoop_out]
        by_cases hs : stop ≤ r.length
        · simp only [if_pos hs, ok_bind]
          congr 1; funext a; congr 1; funext left
          simp only [out_ite, out_bind, out_pay, parseChunk_out, out_pure]
          split
          · congr 1; funext c; congr 1; funext b
            cases b.1 <;> simp only [out_bind, out_pay, out_pure] <;> rfl
          · rfl
        · simp only [if_neg hs]; rfl
    · rfl

theorem parseTags_out (b : Build) (s : Bytes) (pos : Nat) : (Steps.parseTags b s pos).out = parseTags b s pos := by
  unfold Steps.parseTags parseTags
  cases b.tagParser with
  | scalar => exact scalarParse_out ..
  | simd arch addr => exact simdParse_out ..

theorem prefixLoop_out (start : Nat) (s : Bytes) : ∀ (i h : Nat) (n : Option Span) (ne : Option Nat) (u : Option Span),
    (Steps.prefixLoop start s i h n ne u).out = .ok (prefixLoop start s i h n ne u) := by
  induction s with
  | nil => intros; rfl
  | cons c r ih =>
    intro i h n ne u
    cases ne <;> rw [Steps.prefixLoop.eq_def, prefixLoop.eq_def] <;> simp only [out_bind, out_pay, ok_bind, out_ite, out_pure, ih] <;> (repeat' split) <;> rfl

theorem parsePrefix_out (s : Bytes) (pos : Nat) : (Steps.parsePrefix s pos).out = parsePrefix s pos := by
  unfold Steps.parsePrefix parsePrefix
  simp only [out_bind, out_pay, out_ite, out_pure, prefixLoop_out, ok_bind]
  congr 1; funext x
  split
  · rfl
  · cases prefixLoop (pos + 1) (List.drop (pos + 1) s) (pos + 1) (pos + 1) none none none <;> rfl

theorem same_out (x y : Bytes) : (Steps.same x y).out = .ok (x == y) := rfl

theorem lookup_out (token : Bytes) (rows : List (Bytes × RawCommand)) :
    (Steps.lookup token rows).out = .ok (rows.find? fun row => row.1 == token) := by
  induction rows with
  | nil => rfl
  | cons row rows ih =>
    rw [Steps.lookup, List.find?_cons]
    simp only [out_bind, same_out, ok_bind, out_ite, out_pure, ih]
    cases row.1 == token <;> rfl

theorem parseCommand_out (s : Bytes) (pos : Nat) : (Steps.parseCommand s pos).out = parseCommand s pos := by
  unfold Steps.parseCommand parseCommand
  simp only [out_bind, out_pay, find_out, ok_bind]
  congr 1; funext x
  cases find SP x with
  | none =>
    simp only [ok_bind, lookup_out]
    congr 1; funext t
    cases commandTable.find? fun row => row.1 == t with
    | none => exact out_ite ..
    | some row => rfl
  | some n =>
    simp only [ok_bind, lookup_out]
    congr 1; funext t
    cases commandTable.find? fun row => row.1 == t with
    | none => exact out_ite ..
    | some row => rfl

theorem parseChannel_out (s : Bytes) (pos : Nat) : (Steps.parseChannel s pos).out = parseChannel s pos := by
  unfold Steps.parseChannel parseChannel
  simp only [out_bind, out_pay, find_out, ok_bind, out_ite, out_pure]
  congr 1; funext x
  split
  · congr 1; funext y
    cases find SP y <;> rfl
  · rfl

theorem parse_out (b : Build) (s : Bytes) : (Steps.parse b s).out = MsgRef.parse b s := by
  unfold Steps.parse MsgRef.parse
  simp only [out_bind, parseTags_out, parsePrefix_out, parseCommand_out]
  congr 1; funext a; congr 1; funext p; congr 1; funext c
  cases c.1 with
  | none => rfl
  | some command =>
    simp only [out_bind, out_pay, out_pure, parseChannel_out]
    rfl

theorem findTag_out (checks : Bool) (src key : Bytes) (tags : List TagPair) :
    (Steps.findTag checks src key tags).out = findTag checks src key tags := by
  induction tags with
  | nil => rfl
  | cons p ps ih =>
    rw [Steps.findTag, findTag]
    simp only [out_bind, out_pay, same_out, ok_bind, out_ite, out_pure, ih]
    rfl

theorem tag_out (m : MsgRef) (t : Tag) : (Steps.tag m t).out = m.tag t := by
  unfold Steps.tag MsgRef.tag
  simp only [out_bind, findTag_out]
  congr 1; funext o
  cases o with
  | none => rfl
  | some p => simp only [out_bind, out_pay, out_pure]; rfl

theorem text_out (m : MsgRef) : (Steps.text m).out = m.text := by
  unfold Steps.text MsgRef.text
  cases m.parts.params with
  | none => rfl
  | some sp =>
    simp only [out_bind, out_pay, find_out, ok_bind]
    congr 1; funext p
    cases find COLON p with
    | none => rfl
    | some n => simp only [out_bind, out_pay, out_pure]; rfl

theorem actuallyGo_out (cs : List Char) : ∀ e, (Steps.actuallyGo cs e).out = .ok (actuallyGo cs e) := by
  induction cs with
  | nil => intro e; rfl
  | cons c cs ih =>
    intro e
    rw [Steps.actuallyGo, actuallyGo]
    simp only [out_bind, out_pay, ok_bind, out_ite, out_pure, ih]
    (repeat' split) <;> rfl

theorem unescapeGo_out (cs : List Char) : ∀ e, (Steps.unescapeGo cs e).out = .ok (unescapeGo cs e) := by
  induction cs with
  | nil => intro e; rfl
  | cons c cs ih =>
    intro e
    rw [Steps.unescapeGo, unescapeGo]
    simp only [out_bind, out_pay, ok_bind, out_ite, out_pure, ih]
    (repeat' split) <;> rfl

theorem unescape_out (v : Bytes) : (Steps.unescape v).out = .ok (unescape v) := by
  unfold Steps.unescape unescape
  simp only [out_bind, unescapeGo_out, ok_bind, out_pure]

theorem maybeUnescape_out (v : Bytes) : (Steps.maybeUnescape v).out = maybeUnescape v := by
  unfold Steps.maybeUnescape maybeUnescape
  simp only [out_bind, find_out, ok_bind]
  cases find BSLASH v with
  | none => rfl
  | some i =>
    simp only [Steps.actuallyUnescape, actuallyUnescape, out_bind, out_pay, actuallyGo_out, ok_bind, out_pure]
    rfl

/-! ### How many steps it takes -/

theorem find_within (x : UInt8) (s : Bytes) :
    Within (Steps.find x s) s.length fun o => ∀ i, o = some i → i < s.length := by
  induction s with
  | nil => exact .pay (Nat.le_refl _) (by rintro _ ⟨⟩ i h; cases h)
  | cons y t ih =>
    rw [Steps.find]
    refine .tick (m := t.length) ?_ (by simp [Nat.add_comm])
    refine .ite (fun _ => .pure ?_) fun _ => .bind ih (fun o _ h => .pure (n := 0) ?_) (Nat.le_refl _)
    · rintro i ⟨⟩; simp
    · intro i e
      cases o with
      | none => cases e
      | some j => cases e; have := h j rfl; simp; omega

theorem pushTag_ok {tags ts : List TagPair} {p : TagPair} (h : pushTag tags p = .ok ts) : ts.length ≤ 128 := by
  unfold pushTag at h
  split at h
  · cases h; simp; omega
  · cases h

theorem scalarLoop_within (checks : Bool) (s : Bytes) : ∀ (offset : Nat) (st : TState) (tags : List TagPair),
    tags.length ≤ 128 → Within (Steps.scalarLoop checks s offset st tags) (2 * s.length) fun r => r.2.length ≤ 128 := by
  induction s with
  | nil => exact fun _ _ _ h => .pure h
  | cons c r ih =>
    intro offset st tags ht
    have push : ∀ (p : R TagPair) (f : List TagPair → Steps.Run (Nat × List TagPair)) (m k : Nat),
        (∀ ts : List TagPair, ts.length ≤ 128 → Within (f ts) m fun r => r.2.length ≤ 128) → 1 + m ≤ k →
        Within (do let p ← pay 0 p; let ts ← pay 1 (pushTag tags p); f ts) k fun r => r.2.length ≤ 128 :=
      fun p f m k hf hk => .bind (P := fun _ => True) (.pay (Nat.le_refl 0) fun _ _ => trivial)
        (fun p _ _ => .bind (.pay (Nat.le_refl 1) fun _ e => pushTag_ok e) (fun ts _ h => hf ts h) hk) (by omega)
    cases st with
    | key ks =>
      rw [Steps.scalarLoop.eq_def]
      refine .tick (m := 2 * r.length + 1) ?_ (by simp; omega)
      refine .ite (fun _ => (ih _ _ _ ht).weaken (by omega) fun _ h => h) fun _ => ?_
      refine .ite (fun _ => (ih _ _ _ ht).weaken (by omega) fun _ h => h) fun _ => ?_
      exact .ite (fun _ => .pure ht) fun _ => (ih _ _ _ ht).weaken (by omega) fun _ h => h
    | value ks ke =>
      rw [Steps.scalarLoop.eq_def]
      refine .tick (m := 2 * r.length + 1) ?_ (by simp; omega)
      refine .ite (fun _ => (ih _ _ _ ht).weaken (by omega) fun _ h => h) fun _ => ?_
      refine .ite (fun _ => push _ _ _ _ (fun ts h => ih _ _ ts h) (by omega)) fun _ => ?_
      exact .ite (fun _ => push _ _ 0 _ (fun ts h => .pure h) (by omega)) fun _ =>
        (ih _ _ _ ht).weaken (by omega) fun _ h => h

theorem strFrom_ok {s t : Bytes} {i : Nat} (h : strFrom s i = .ok t) : t = s.drop i := by
  unfold strFrom at h
  split at h
  · cases h; rfl
  · cases h

theorem scalarParse_within (checks : Bool) (s : Bytes) (pos : Nat) :
    Within (Steps.scalarParse checks s pos) (2 * s.length + 129) fun r => (r.1.getD []).length ≤ 128 := by
  unfold Steps.scalarParse
  refine .bind (P := fun t => t.length ≤ s.length) (m := 2 * s.length + 128)
    (.pay (Nat.le_refl 1) fun t e => ?_) (fun t _ h => ?_) (by omega)
  · rw [strFrom_ok e, List.length_drop]; omega
  · cases t with
    | nil => exact .pure (Nat.zero_le _)
    | cons c r =>
      refine .ite (fun _ => ?_) fun _ => .pure (Nat.zero_le _)
      refine .bind (m := 128) (scalarLoop_within checks r 0 (.key 0) [] (by simp)) (fun a _ h => ?_) ?_
      · exact .pay h fun _ e => by cases e; exact h
      · rw [List.length_cons] at h; omega

theorem findUnrolled_within (B : Backend) (hB : 5 ≤ B.size) (d : Slice) (byte : UInt8) (offset : Nat) :
    Within (Steps.findUnrolled B d byte offset) (d.bytes.length - offset) fun _ => True := by
  fun_induction Steps.findUnrolled B d byte offset with
  | case1 offset h ih =>
    have load : ∀ {β : Type} {x : R Bytes} {f : Bytes → Run β} {k : Nat}, (∀ c, Within (f c) k fun _ => True) →
        Within (pay 1 x >>= f) (1 + k) fun _ => True := fun hf =>
      .bind (P := fun _ => True) (.pay (Nat.le_refl 1) fun _ _ => trivial) (fun c _ _ => hf c) (Nat.le_refl _)
    obtain ⟨k, hk⟩ : ∃ k, d.bytes.length - offset = 1 + (1 + (1 + (1 + (4 + k)))) :=
      ⟨d.bytes.length - offset - 8, by omega⟩
    rw [hk]
    refine load fun c0 => load fun c1 => load fun c2 => load fun c3 => .tick (m := k) ?_ (Nat.le_refl _)
    cases chunkMatch B c0 byte with
    | some p => exact .pure trivial
    | none =>
      cases chunkMatch B c1 byte with
      | some p => exact .pure trivial
      | none =>
        cases chunkMatch B c2 byte with
        | some p => exact .pure trivial
        | none =>
          cases chunkMatch B c3 byte with
          | some p => exact .pure trivial
          | none => exact ih.weaken (by omega) fun _ h => h
  | case2 offset h => exact .pure trivial

theorem findAligned_within (B : Backend) (hB : 5 ≤ B.size) (d : Slice) (byte : UInt8) (offset : Nat) :
    Within (Steps.findAligned B d byte offset) (d.bytes.length - offset) fun _ => True := by
  fun_induction Steps.findAligned B d byte offset with
  | case1 offset h ih =>
    refine .bind (P := fun _ => True) (m := d.bytes.length - offset - 1) (.pay (Nat.le_refl 1) fun _ _ => trivial)
      (fun c _ _ => .tick (m := d.bytes.length - offset - 2) ?_ (by omega)) (by omega)
    cases chunkMatch B c byte with
    | some p => exact .pure trivial
    | none => exact ih.weaken (by omega) fun _ h => h
  | case2 offset h => exact .pure trivial

theorem scalarFind_within (byte : UInt8) (s : Bytes) : ∀ i, Within (Steps.scalarFind byte s i) s.length fun _ => True := by
  induction s with
  | nil => exact fun _ => .pure trivial
  | cons c r ih =>
    intro i
    rw [Steps.scalarFind]
    exact .tick (m := r.length) (.ite (fun _ => .pure trivial) fun _ => ih _) (by simp [Nat.add_comm])

theorem findFirst_within (B : Backend) (hB : 5 ≤ B.size) (d : Slice) (byte : UInt8) :
    Within (Steps.findFirst B d byte) (2 * d.bytes.length + 4) fun _ => True := by
  unfold Steps.findFirst
  refine .ite (fun _ => (scalarFind_within ..).weaken (by omega) fun _ h => h) fun _ => ?_
  refine .bind (P := fun _ => True) (.pay (Nat.le_refl 1) fun _ _ => trivial)
    (fun c _ _ => .tick (m := 2 * d.bytes.length + 2) ?_ (Nat.le_refl _)) (by omega)
  cases chunkMatch B c byte with
  | some p => exact .pure trivial
  | none =>
    refine .free fun a _ => ?_
    refine .free fun o _ => ?_
    refine .bind (m := d.bytes.length + 2) (findUnrolled_within B hB d byte o) (fun ph _ _ => ?_) (by omega)
    cases ph with
    | found i => exact .pure trivial
    | next o =>
      refine .bind (m := 2) (findAligned_within B hB d byte o) (fun ph _ _ => ?_) (by omega)
      cases ph with
      | found i => exact .pure trivial
      | next o =>
        refine .ite (fun _ => ?_) fun _ => .pure trivial
        refine .free fun a _ => ?_
        refine .bind (P := fun _ => True) (.pay (Nat.le_refl 1) fun _ _ => trivial)
          (fun c _ _ => .tick (m := 0) ?_ (Nat.le_refl _)) (by omega)
        cases chunkMatch B c byte <;> exact .pure trivial

theorem chunkLoop_within (checks : Bool) (B : Backend) (offset : Nat) : ∀ (fuel : Nat) (e s : B.Mask) (st : TState)
    (tags : List TagPair), tags.length ≤ 128 →
    Within (Steps.chunkLoop checks B offset fuel e s st tags) (2 * fuel) fun r => r.2.length ≤ 128 := by
  intro fuel
  induction fuel with
  | zero => exact fun _ _ _ _ _ => .pay (Nat.le_refl 0) fun _ e => by cases e
  | succ fuel ih =>
    intro e s st tags ht
    have free : ∀ {α β : Type} {x : R α} {f : α → Run β} {k : Nat} {Q : β → Prop}, (∀ c, Within (f c) k Q) →
        Within (pay 0 x >>= f) k Q := fun hf =>
      .bind (P := fun _ => True) (.pay (Nat.le_refl 0) fun _ _ => trivial) (fun c _ _ => hf c) (by omega)
    cases st with
    | key ks =>
      rw [Steps.chunkLoop.eq_def]
      refine .tick (m := 2 * fuel + 1) (.ite (fun _ => .pure ht) fun _ => ?_) (by omega)
      exact free fun _ => free fun _ => (ih _ _ _ _ ht).weaken (by omega) fun _ h => h
    | value ks ke =>
      rw [Steps.chunkLoop.eq_def]
      refine .tick (m := 2 * fuel + 1) (.ite (fun _ => .pure ht) fun _ => ?_) (by omega)
      exact free fun _ => free fun _ => free fun _ =>
        .bind (.pay (Nat.le_refl 1) fun _ e => pushTag_ok e) (fun ts _ h => ih _ _ _ _ h) (by omega)

theorem parseChunk_within (checks : Bool) (B : Backend) (offset : Nat) (chunk : Bytes) (st : TState)
    (tags : List TagPair) (ht : tags.length ≤ 128) :
    Within (Steps.parseChunk checks B offset chunk st tags) (2 * B.size + 4) fun r => r.2.length ≤ 128 := by
  unfold Steps.parseChunk
  exact .tick (chunkLoop_within _ _ _ _ _ _ _ _ ht) (by omega)

theorem simdLoop_within (checks : Bool) (B : Backend) (hB : 5 ≤ B.size) (rem : Slice) (offset : Nat) (st : TState)
    (tags : List TagPair) : tags.length ≤ 128 → Within (Steps.simdLoop checks B rem offset st tags)
      (3 * (rem.bytes.length - offset)) fun r => r.2.2.length ≤ 128 := by
  fun_induction Steps.simdLoop checks B rem offset st tags with
  | case1 offset st tags h ih =>
    intro ht
    refine .bind (P := fun _ => True) (m := 3 * (rem.bytes.length - offset) - 1) (.pay (Nat.le_refl 1) fun _ _ => trivial)
      (fun c _ _ => ?_) (by omega)
    exact .bind (parseChunk_within checks B offset c st tags ht) (fun r _ hr => ih r.1 r.2 hr) (by omega)
  | case2 offset st tags h => exact fun ht => .pure ht

theorem simdParse_within (checks : Bool) (B : Backend) (hB : 5 ≤ B.size) (addr : Nat) (s : Bytes) (pos : Nat) :
    Within (Steps.simdParse checks B addr s pos) (5 * s.length + 3 * B.size + 138) fun r => (r.1.getD []).length ≤ 128 := by
  unfold Steps.simdParse
  refine .bind (P := fun t => t.length ≤ s.length) (m := 5 * s.length + 3 * B.size + 137)
    (.pay (Nat.le_refl 1) fun t e => ?_) (fun t _ h => ?_) (by omega)
  · rw [strFrom_ok e, List.length_drop]; omega
  · cases t with
    | nil => exact .pure (Nat.zero_le _)
    | cons c r =>
      rw [List.length_cons] at h
      refine .ite (fun _ => ?_) fun _ => .pure (Nat.zero_le _)
      refine .bind (m := 3 * r.length + 3 * B.size + 133) (findFirst_within B hB _ _) (fun o _ _ => ?_)
        (by show 2 * r.length + 4 + _ ≤ _; omega)
      cases o with
      | none => exact .pure (Nat.zero_le _)
      | some stop =>
        refine .bind (P := fun d : Slice => d.bytes.length ≤ r.length) (m := 3 * r.length + 3 * B.size + 133)
          (.pay (Nat.le_refl 0) fun d e => ?_) (fun d _ hd => ?_) (by omega)
        · split at e
          · cases e; simp; omega
          · cases e
        · refine .bind (m := 3 * B.size + 133) (simdLoop_within checks B hB d 0 (.key 0) [] (by simp))
            (fun a _ ha => ?_) (by omega)
          refine .free fun left _ => ?_
          refine .ite (fun _ => ?_) fun _ => ?_
          · refine .bind (P := fun _ => True) (m := 2 * B.size + 133) (.pay (Nat.le_refl B.size) fun _ _ => trivial)
              (fun c _ _ => ?_) (by omega)
            refine .bind (m := 129) (parseChunk_within checks B _ c _ _ ha) (fun b _ hb => ?_) (by omega)
            obtain ⟨b1, b2⟩ := b
            cases b1 with
            | key ks => exact .bind (P := fun ts : List TagPair => ts.length ≤ 128) (.pure (n := 0) hb) (fun ts _ h => .pay h fun _ e => by cases e; exact h) (by omega)
            | value ks ke =>
              refine .free fun p _ => ?_
              exact .bind (.pay (Nat.le_refl 1) fun _ e => pushTag_ok e) (fun ts _ h => .pay h fun _ e => by cases e; exact h)
                (by omega)
          · exact .bind (P := fun ts : List TagPair => ts.length ≤ 128) (.pure (n := 0) ha)
              (fun ts _ h => .pay h fun _ e => by cases e; exact h) (by omega)

theorem parseTags_within (b : Build) (s : Bytes) (pos : Nat) :
    Within (Steps.parseTags b s pos) (5 * s.length + 234) fun r => (r.1.getD []).length ≤ 128 := by
  unfold Steps.parseTags
  cases b.tagParser with
  | scalar => exact (scalarParse_within ..).weaken (by omega) fun _ h => h
  | simd arch addr =>
    have : 5 ≤ arch.backend.size ∧ arch.backend.size ≤ 32 := by cases arch <;> decide
    exact (simdParse_within b.checks arch.backend this.1 addr s pos).weaken (by omega) fun _ h => h

theorem prefixLoop_within (start : Nat) (s : Bytes) : ∀ (i h : Nat) (n : Option Span) (ne : Option Nat) (u : Option Span),
    Within (Steps.prefixLoop start s i h n ne u) s.length fun _ => True := by
  induction s with
  | nil => intro i h n ne u; cases ne <;> exact .pure trivial
  | cons c r ih =>
    intro i h n ne u
    cases ne <;> rw [Steps.prefixLoop.eq_def] <;>
      exact .tick (m := r.length) (.ite (fun _ => .pure trivial) fun _ => .ite (fun _ => ih ..) fun _ =>
        .ite (fun _ => ih ..) fun _ => ih ..) (by simp [Nat.add_comm])

theorem parsePrefix_within (s : Bytes) (pos : Nat) : Within (Steps.parsePrefix s pos) (s.length + 1) fun _ => True := by
  unfold Steps.parsePrefix
  refine .bind (P := fun _ => True) (m := s.length) (.pay (Nat.le_refl 1) fun _ _ => trivial) (fun t _ _ => ?_) (by omega)
  refine .ite (fun _ => .pure trivial) fun _ => ?_
  refine .bind (m := 0) (prefixLoop_within ..) (fun o _ _ => ?_) (by rw [List.length_drop]; omega)
  cases o <;> exact .pure trivial

theorem lookup_within (token : Bytes) (rows : List (Bytes × RawCommand)) :
    Within (Steps.lookup token rows) (rows.map fun row => 1 + row.1.length).sum fun _ => True := by
  induction rows with
  | nil => exact .pure trivial
  | cons row rows ih =>
    rw [Steps.lookup]
    exact .bind (P := fun _ => True) (.pay (Nat.le_refl _) fun _ _ => trivial)
      (fun b _ _ => .ite (fun _ => .pure trivial) fun _ => ih) (by rw [List.map_cons, List.sum_cons]; omega)

theorem parseCommand_within (s : Bytes) (pos : Nat) :
    Within (Steps.parseCommand s pos) (s.length + 159) fun _ => True := by
  have hl : (commandTable.map fun row => 1 + row.1.length).sum = 159 := by decide +kernel
  unfold Steps.parseCommand
  refine .bind (P := fun t => t.length ≤ s.length) (m := s.length + 159) (.pay (Nat.le_refl 0) fun t e => ?_)
    (fun t _ ht => ?_) (by omega)
  · rw [strFrom_ok e, List.length_drop]; omega
  · refine .bind (m := 159) (find_within ..) (fun o _ _ => ?_) (by omega)
    refine .free fun tok _ => ?_
    refine .bind (m := 0) (hl ▸ lookup_within tok commandTable) (fun o _ _ => ?_) (by omega)
    cases o with
    | none => exact .ite (fun _ => .pure trivial) fun _ => .pure trivial
    | some row => exact .pure trivial

theorem parseChannel_within (s : Bytes) (pos : Nat) : Within (Steps.parseChannel s pos) (s.length + 1) fun _ => True := by
  unfold Steps.parseChannel
  refine .bind (P := fun _ => True) (m := s.length) (.pay (Nat.le_refl 1) fun _ _ => trivial) (fun t _ _ => ?_) (by omega)
  refine .ite (fun _ => ?_) fun _ => .pure trivial
  refine .bind (P := fun t => t.length ≤ s.length) (m := s.length) (.pay (Nat.le_refl 0) fun t e => ?_)
    (fun t _ ht => ?_) (by omega)
  · rw [strFrom_ok e, List.length_drop]; omega
  · refine .bind (m := 0) (find_within ..) (fun o _ _ => ?_) (by omega)
    cases o <;> exact .pure trivial

theorem parse_within (b : Build) (s : Bytes) : Within (Steps.parse b s) (8 * s.length + 400) fun o =>
    ∀ m, o = some m → m.parts.tags.length ≤ 128 := by
  unfold Steps.parse
  refine .bind (m := 3 * s.length + 166) (parseTags_within ..) (fun a _ ha => ?_) (by omega)
  refine .bind (m := 2 * s.length + 165) (parsePrefix_within ..) (fun p _ _ => ?_) (by omega)
  refine .bind (m := s.length + 2) (parseCommand_within ..) (fun c _ _ => ?_) (by omega)
  obtain ⟨c, pos⟩ := c
  cases c with
  | none => exact .pure nofun
  | some command =>
    refine .bind (m := 1) (parseChannel_within ..) (fun ch _ _ => ?_) (by omega)
    exact .bind (P := fun _ => True) (.pay (Nat.le_refl 1) fun _ _ => trivial)
      (fun _ _ _ => .pure (n := 0) fun m e => by cases e; exact ha) (by omega)

theorem findTag_within (checks : Bool) (src key : Bytes) (tags : List TagPair) :
    Within (Steps.findTag checks src key tags) (tags.length * (key.length + 1)) fun _ => True := by
  induction tags with
  | nil => exact .pure trivial
  | cons p ps ih =>
    rw [Steps.findTag, List.length_cons, Nat.add_mul]
    refine .free fun sp _ => ?_
    refine .free fun k _ => ?_
    exact .bind (P := fun _ => True) (.pay (Nat.le_refl _) fun _ _ => trivial)
      (fun b _ _ => .ite (fun _ => .pure trivial) fun _ => ih) (by omega)

theorem tag_within (m : MsgRef) (t : Tag) :
    Within (Steps.tag m t) (m.parts.tags.length * (t.asStr.length + 1)) fun _ => True := by
  unfold Steps.tag
  refine .bind (m := 0) (findTag_within ..) (fun o _ _ => ?_) (by omega)
  cases o with
  | none => exact .pure trivial
  | some p =>
    refine .free fun sp _ => ?_
    exact .free fun _ _ => .pure trivial

theorem strSlice_len {s t : Bytes} {i j : Nat} (h : strSlice s i j = .ok t) : t.length ≤ s.length := by
  unfold strSlice at h
  split at h
  · cases h; simp; omega
  · cases h

theorem text_within (m : MsgRef) : Within (Steps.text m) m.src.length fun _ => True := by
  unfold Steps.text
  cases m.parts.params with
  | none => exact .pure trivial
  | some sp =>
    refine .bind (P := fun t => t.length ≤ m.src.length) (m := m.src.length) (.pay (Nat.le_refl 0) fun t e => strSlice_len e)
      (fun t _ ht => ?_) (by omega)
    refine .bind (m := 0) (find_within ..) (fun o _ _ => ?_) (by omega)
    cases o with
    | none => exact .pure trivial
    | some n =>
      exact .free fun _ _ => .pure trivial

theorem actuallyGo_within (cs : List Char) : ∀ e, Within (Steps.actuallyGo cs e) cs.length fun _ => True := by
  induction cs with
  | nil => intro e; exact .pure trivial
  | cons c cs ih =>
    intro e
    rw [Steps.actuallyGo]
    have next : ∀ (x : Char) (e : Bool), Within (do return x :: (← Steps.actuallyGo cs e)) cs.length fun _ => True :=
      fun x e => .bind (m := 0) (ih e) (fun _ _ _ => .pure trivial) (by omega)
    refine .tick (m := cs.length) ?_ (by simp [Nat.add_comm])
    (repeat' refine .ite (fun _ => ?_) fun _ => ?_) <;> first | exact next .. | exact ih ..

theorem unescapeGo_within (cs : List Char) : ∀ e, Within (Steps.unescapeGo cs e) cs.length fun _ => True := by
  induction cs with
  | nil => intro e; exact .pure trivial
  | cons c cs ih =>
    intro e
    rw [Steps.unescapeGo]
    have next : ∀ (x : Char) (e : Bool), Within (do return x :: (← Steps.unescapeGo cs e)) cs.length fun _ => True :=
      fun x e => .bind (m := 0) (ih e) (fun _ _ _ => .pure trivial) (by omega)
    refine .tick (m := cs.length) ?_ (by simp [Nat.add_comm])
    (repeat' refine .ite (fun _ => ?_) fun _ => ?_) <;> first | exact next .. | exact ih ..

theorem decode_len (s : Bytes) : (decode s).length ≤ s.length := by
  fun_induction decode s <;> simp_all <;> omega

theorem unescape_within (v : Bytes) : Within (Steps.unescape v) v.length fun _ => True :=
  .bind (m := 0) (unescapeGo_within ..) (fun _ _ _ => .pure trivial) (by have := decode_len v; omega)

theorem maybeUnescape_within (v : Bytes) : Within (Steps.maybeUnescape v) (2 * v.length) fun _ => True := by
  unfold Steps.maybeUnescape
  refine .bind (m := v.length) (find_within ..) (fun o _ ho => ?_) (by omega)
  cases o with
  | none => exact .pure trivial
  | some i =>
    have := ho i rfl
    unfold Steps.actuallyUnescape
    refine .bind (P := fun _ => True) (m := v.length - i) (.pay (Nat.le_refl i) fun _ _ => trivial) (fun h _ _ => ?_) (by omega)
    refine .bind (P := fun t => t = v.drop i) (m := v.length - i) (.pay (Nat.le_refl 0) fun t e => strFrom_ok e)
      (fun t _ ht => ?_) (by omega)
    subst ht
    exact .bind (m := 0) (actuallyGo_within ..) (fun _ _ _ => .pure trivial)
      (by have := decode_len (v.drop i); rw [List.length_drop] at this; omega)

/-! ### Nothing is left out -/

/-- What holds of the result and of the number of steps it took. -/
def Spends {α : Type} (x : Run α) (P : α → Nat → Prop) : Prop := ∀ a, x.out = .ok a → P a x.steps

theorem Spends.bind {α β : Type} {x : Run α} {f : α → Run β} {P : α → Nat → Prop} {Q : β → Nat → Prop}
    (h : Spends x P) (hf : ∀ a, P a x.steps → Spends (f a) fun b n => Q b (x.steps + n)) : Spends (x >>= f) Q := by
  show Spends (Run.bind x f) Q
  unfold Run.bind
  intro b
  cases e : x.out with
  | error _ => intro h; cases h
  | ok a => exact hf a (h a e) b

theorem Spends.pure {α : Type} {a : α} {P : α → Nat → Prop} (h : P a 0) : Spends (pure a : Run α) P :=
  fun b e => by cases e; exact h

theorem Spends.pay {α : Type} {x : R α} {n : Nat} {P : α → Nat → Prop} (h : ∀ a, x = .ok a → P a n) :
    Spends (pay n x) P := h

theorem Spends.paid {α β : Type} {x : R α} {n : Nat} {f : α → Run β} {Q : β → Nat → Prop}
    (h : ∀ a, x = .ok a → Spends (f a) fun b m => Q b (n + m)) : Spends (Steps.pay n x >>= f) Q :=
  Spends.bind (P := fun a _ => x = .ok a) (fun _ h => h) fun a e => h a e

theorem Spends.weaken {α : Type} {x : Run α} {P Q : α → Nat → Prop} (h : Spends x P) (hp : ∀ a n, P a n → Q a n) :
    Spends x Q := fun a e => hp a _ (h a e)

theorem Spends.ite {α : Type} {c : Prop} [Decidable c] {x y : Run α} {P : α → Nat → Prop}
    (hx : c → Spends x P) (hy : ¬ c → Spends y P) : Spends (if c then x else y) P := by
  by_cases h : c
  · rw [if_pos h]; exact hx h
  · rw [if_neg h]; exact hy h

theorem find_spends (x : UInt8) (s : Bytes) :
    Spends (Steps.find x s) fun o n => n = (o.map (· + 1)).getD s.length := by
  induction s with
  | nil => exact .pay (by rintro _ ⟨⟩; rfl)
  | cons y t ih =>
    rw [Steps.find]
    refine .paid fun _ _ => .ite (fun _ => .pure rfl) fun _ => .bind ih fun o ho => .pure ?_
    rw [ho]
    cases o <;> simp [Nat.add_comm]

theorem pushTag_len {tags ts : List TagPair} {p : TagPair} (h : pushTag tags p = .ok ts) : ts.length = tags.length + 1 := by
  unfold pushTag at h
  split at h
  · cases h; simp
  · cases h

theorem scalarLoop_spends (checks : Bool) (s : Bytes) : ∀ (offset : Nat) (st : TState) (tags : List TagPair),
    Spends (Steps.scalarLoop checks s offset st tags) fun r n => r.1 ≤ offset + s.length ∧
      n + offset + tags.length = r.1 + r.2.length + if r.1 < offset + s.length then 1 else 0 := by
  induction s with
  | nil => exact fun _ _ _ => .pure (by simp)
  | cons c r ih =>
    intro offset st tags
    have step : ∀ (st : TState) (ts : List TagPair), Spends (Steps.scalarLoop checks r (offset + 1) st ts) fun a n =>
        a.1 ≤ offset + (c :: r).length ∧ 1 + n + offset + ts.length =
          a.1 + a.2.length + if a.1 < offset + (c :: r).length then 1 else 0 := fun st ts =>
      (ih (offset + 1) st ts).weaken fun a n h => by
        rw [show offset + 1 + r.length = offset + (c :: r).length by simp; omega] at h
        exact ⟨h.1, by omega⟩
    have stop : ∀ ts : List TagPair, (if offset < offset + (c :: r).length then 1 else 0) = 1 := fun _ =>
      if_pos (by simp)
    cases st with
    | key ks =>
      rw [Steps.scalarLoop.eq_def]
      refine .paid fun _ _ => .ite (fun _ => step _ _) fun _ => .ite (fun _ => step _ _) fun _ =>
        .ite (fun _ => .pure ⟨by simp, ?_⟩) fun _ => step _ _
      simp [stop tags]; omega
    | value ks ke =>
      rw [Steps.scalarLoop.eq_def]
      refine .paid fun _ _ => .ite (fun _ => step _ _) fun _ =>
        .ite (fun _ => .paid fun p _ => .paid fun ts e => (step _ ts).weaken fun a n h => ⟨h.1, ?_⟩) fun _ =>
        .ite (fun _ => .paid fun p _ => .paid fun ts e => .pure ⟨by simp, ?_⟩) fun _ => step _ _
      · have := pushTag_len e; omega
      · have := pushTag_len e; simp [stop tags]; omega

theorem prefixLoop_spends (start : Nat) (s : Bytes) : ∀ (i h : Nat) (n : Option Span) (ne : Option Nat)
    (u : Option Span), Spends (Steps.prefixLoop start s i h n ne u) fun o k =>
      (∀ r, o = some r → r.2 = i + k) ∧ (o = none → k = s.length) := by
  induction s with
  | nil => intro i h n ne u; cases ne <;> exact .pure ⟨nofun, fun _ => rfl⟩
  | cons c r ih =>
    intro i h n ne u
    have step : ∀ (h : Nat) (n : Option Span) (ne : Option Nat) (u : Option Span),
        Spends (Steps.prefixLoop start r (i + 1) h n ne u) fun o k =>
          (∀ r, o = some r → r.2 = i + (1 + k)) ∧ (o = none → 1 + k = (c :: r).length) := fun h n ne u =>
      (ih (i + 1) h n ne u).weaken fun o k h => ⟨fun r e => by have := h.1 r e; omega, fun e => by
        have := h.2 e; simp; omega⟩
    cases ne <;> rw [Steps.prefixLoop.eq_def] <;>
      exact .paid fun _ _ => .ite (fun _ => .pure ⟨fun r e => by cases e; rfl, nofun⟩) fun _ =>
        .ite (fun _ => step _ _ _ _) fun _ => .ite (fun _ => step _ _ _ _) fun _ => step _ _ _ _

theorem boundary_le {s : Bytes} {i : Nat} {t : Bytes} (h : strFrom s i = .ok t) : i ≤ s.length := by
  unfold strFrom at h
  split at h
  · next hb =>
    cases i with
    | zero => omega
    | succ i =>
      rw [show isCharBoundary s (i + 1) = match s[i + 1]? with
        | some b => !isCont b
        | none => i + 1 == s.length from rfl] at hb
      cases e : s[i + 1]? with
      | none => rw [e] at hb; simp at hb; omega
      | some b => have := (List.getElem?_eq_some_iff.1 e).1; omega
  · cases h

theorem scalarParse_spends (checks : Bool) (s : Bytes) : Spends (Steps.scalarParse checks s 0) fun r n =>
    r.2 ≤ s.length → r.2 + 2 * (r.1.getD []).length ≤ n := by
  unfold Steps.scalarParse
  refine .paid fun t e => ?_
  have := strFrom_ok e
  rw [List.drop_zero] at this
  subst this
  cases t with
  | nil => exact .pure fun _ => Nat.zero_le _
  | cons c r =>
    refine .ite (fun _ => ?_) fun _ => .pure fun _ => Nat.zero_le _
    refine .bind (scalarLoop_spends checks r 0 (.key 0) []) fun a ha => .pay ?_
    rintro _ ⟨⟩ hl
    obtain ⟨h1, h2⟩ := ha
    simp only [List.length_cons, List.length_nil, Option.getD_some] at h1 h2 hl ⊢
    rw [if_pos (by omega)] at h2
    omega

theorem parsePrefix_spends (s : Bytes) (pos : Nat) : Spends (Steps.parsePrefix s pos) fun r n =>
    pos ≤ s.length ∧ r.2 ≤ pos + n := by
  unfold Steps.parsePrefix
  refine .paid fun t e => ?_
  have hb := boundary_le e
  refine .ite (fun _ => .pure ⟨hb, Nat.le_add_right ..⟩) fun _ => ?_
  refine .bind (prefixLoop_spends _ _ _ _ _ _ _) fun o ho => ?_
  cases o with
  | none => exact .pure ⟨hb, Nat.le_add_right ..⟩
  | some r =>
    refine .pure ⟨hb, ?_⟩
    have := ho.1 r rfl
    show r.2 ≤ _
    omega

theorem parseCommand_spends (s : Bytes) (pos : Nat) : Spends (Steps.parseCommand s pos) fun r n =>
    pos ≤ s.length ∧ r.2 ≤ pos + n := by
  unfold Steps.parseCommand
  refine .paid fun t e => ?_
  have hb := boundary_le e
  have ht := strFrom_ok e
  have hl : t.length = s.length - pos := by rw [ht, List.length_drop]
  refine .bind (find_spends _ _) fun o ho => ?_
  have hp : (match o with
      | some n => (pos + n, pos + n + 1)
      | none => (s.length, s.length)).2 ≤ pos + (Steps.find SP t).steps := by
    cases o with
    | none => simp at ho ⊢; omega
    | some n => simp at ho ⊢; omega
  refine .paid fun tok _ => .bind (P := fun _ _ => True) (fun _ _ => trivial) fun row _ => ?_
  cases row with
  | none =>
    exact .ite (fun _ => .pure ⟨hb, Nat.le_trans hp (by omega)⟩) fun _ => .pure ⟨hb, Nat.le_add_right ..⟩
  | some row => exact .pure ⟨hb, Nat.le_trans hp (by omega)⟩

theorem parseChannel_spends (s : Bytes) (pos : Nat) : Spends (Steps.parseChannel s pos) fun r n =>
    pos ≤ s.length ∧ r.2 ≤ pos + n := by
  unfold Steps.parseChannel
  refine .paid fun t e => ?_
  have hb := boundary_le e
  refine .ite (fun _ => .paid fun u e => ?_) fun _ => .pure ⟨hb, Nat.le_add_right ..⟩
  have hl : u.length = s.length - pos := by rw [strFrom_ok e, List.length_drop]
  refine .bind (find_spends _ _) fun o ho => ?_
  cases o with
  | none => refine .pure ⟨hb, ?_⟩; simp at ho ⊢; omega
  | some n => refine .pure ⟨hb, ?_⟩; simp at ho ⊢; omega

theorem parse_spends (b : Build) (hb : b.tagParser = .scalar) (s : Bytes) (hs : s.length < 4294967296) :
    Spends (Steps.parse b s) fun o n => ∀ m, o = some m → ∀ ps, m.params = .ok ps →
      s.length + 2 * m.parts.tags.length ≤ n + (ps.getD []).length := by
  unfold Steps.parse
  have h1 : Spends (Steps.parseTags b s 0) fun r n => r.2 ≤ s.length → r.2 + 2 * (r.1.getD []).length ≤ n := by
    unfold Steps.parseTags
    rw [hb]
    exact scalarParse_spends b.checks s
  refine .bind h1 fun a ha => .bind (parsePrefix_spends s a.2) fun p hp => .bind (parseCommand_spends s p.2) fun c hc => ?_
  obtain ⟨c, pos⟩ := c
  cases c with
  | none => exact .pure fun m e => by cases e
  | some command =>
    refine .bind (parseChannel_spends s pos) fun ch hch => .paid fun ps e => .pure ?_
    rintro m ⟨⟩ q hq
    have ha := ha hp.1
    have hpos : pos ≤ _ := hc.2
    have key : s.length ≤ ch.2 + (q.getD []).length := by
      unfold parseParams at e
      cases ht : strFrom s ch.2 with
      | error x => rw [ht] at e; cases e
      | ok t =>
        rw [ht] at e
        have hl := boundary_le ht
        have htl : t.length = s.length - ch.2 := by rw [strFrom_ok ht, List.length_drop]
        cases t with
        | nil => simp at htl; omega
        | cons x t =>
          cases e
          have e1 : asU32 ch.2 = ch.2 := Nat.mod_eq_of_lt (by omega)
          have e2 : asU32 s.length = s.length := Nat.mod_eq_of_lt hs
          have hq : (do return some (← strSlice s (asU32 ch.2) (asU32 s.length)) : R (Option Bytes)) = .ok q := hq
          rw [e1, e2] at hq
          cases hss : strSlice s ch.2 s.length with
          | error x => rw [hss] at hq; cases hq
          | ok v =>
            rw [hss] at hq
            cases hq
            unfold strSlice at hss
            split at hss
            · cases hss; simp; omega
            · cases hss
    simp only at *
    omega

end StepsP

end Tmi.Proofs
