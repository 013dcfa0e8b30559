/-
The prefix pass computes the closed form of `Spec.nickOf` / `userOf` / `hostOf`.
-/
import Verif.Model.Irc
import Verif.Proofs.Tags

namespace Tmi.Spec

theorem cutLast_snoc (x c : UInt8) : ∀ q : Bytes,
    cutLast x (q ++ [c]) =
      if c = x then some (q, []) else (cutLast x q).map fun r => (r.1, r.2 ++ [c])
  | [] => by
    by_cases h : c = x <;> simp [cutLast, h]
  | y :: q => by
    rw [List.cons_append, cutLast, cutLast_snoc x c q]
    by_cases h : c = x
    · simp [h]
    · simp only [h, if_false]
      rw [cutLast]
      cases cutLast x q with
      | some r => simp
      | none => by_cases hy : y = x <;> simp [hy]

theorem cutLast_some {x : UInt8} : ∀ {s a b : Bytes}, cutLast x s = some (a, b) →
    s = a ++ x :: b ∧ x ∉ b
  | [], a, b, h => by simp [cutLast] at h
  | y :: t, a, b, h => by
    rw [cutLast] at h
    cases ht : cutLast x t with
    | some r =>
      obtain ⟨a', b'⟩ := r
      rw [ht] at h
      simp at h
      obtain ⟨rfl, rfl⟩ := h
      have := cutLast_some ht
      exact ⟨by rw [this.1]; simp, this.2⟩
    | none =>
      rw [ht] at h
      simp at h
      obtain ⟨rfl, rfl, rfl⟩ := h
      refine ⟨rfl, ?_⟩
      have hn : ∀ s : Bytes, cutLast y s = none → y ∉ s := by
        intro s
        induction s with
        | nil => simp
        | cons z s ih =>
          intro h
          rw [cutLast] at h
          cases hz : cutLast y s with
          | some r => rw [hz] at h; simp at h
          | none =>
            rw [hz] at h
            simp at h
            simp [ih hz, Ne.symm h]
      exact hn _ ht

theorem cutLast_none {x : UInt8} : ∀ {s : Bytes}, cutLast x s = none ↔ x ∉ s
  | [] => by simp [cutLast]
  | y :: t => by
    rw [cutLast]
    have ih := cutLast_none (x := x) (s := t)
    cases ht : cutLast x t with
    | some r =>
      rw [ht] at ih
      simp at ih
      simp [ih]
    | none =>
      rw [ht] at ih
      simp at ih
      by_cases hy : y = x
      · simp [hy]
      · simp [hy, ih, Ne.symm hy]

theorem cutLast_append {x : UInt8} (a : Bytes) {b : Bytes} (hb : x ∉ b) :
    cutLast x (a ++ x :: b) = some (a, b) := by
  induction a with
  | nil =>
    rw [List.nil_append, cutLast, cutLast_none.2 hb]
    simp
  | cons y a ih => rw [List.cons_append, cutLast, ih]

end Tmi.Spec

namespace Tmi.Model
open Tmi.Spec

/-! Values of the loop variables after reading `q`. -/

def hostStartAt (start : Nat) (q : Bytes) : Nat :=
  match cutLast AT q with
  | some (a, _) => start + a.length + 1
  | none => start

def nickAt (start : Nat) (q : Bytes) : Option Span :=
  match cutLast BANG q with
  | some (n, _) => some (Span.mk' start (start + n.length))
  | none => (cutLast AT q).map fun r => Span.mk' start (start + r.1.length)

def nickEndAt (start : Nat) (q : Bytes) : Option Nat :=
  (cutLast BANG q).map fun r => start + r.1.length

def userAt (start : Nat) (q : Bytes) : Option Span :=
  match cutLast AT q with
  | some (a, _) => (cutLast BANG a).map fun r =>
      Span.mk' (start + r.1.length + 1) (start + a.length)
  | none => none

theorem userAt_none {start : Nat} {q : Bytes} (h : cutLast BANG q = none) : userAt start q = none := by
  unfold userAt
  cases hq : cutLast AT q with
  | none => rfl
  | some r =>
    obtain ⟨a, b⟩ := r
    have hs := (cutLast_some hq).1
    have : cutLast BANG a = none := by
      rw [cutLast_none] at h ⊢
      rw [hs] at h
      simp at h
      exact h.1
    simp [this]

theorem prefixLoop_eq (start : Nat) (rest : Bytes) : ∀ (p q : Bytes), SP ∉ p →
    prefixLoop start (p ++ SP :: rest) (start + q.length) (hostStartAt start q) (nickAt start q)
      (nickEndAt start q) (userAt start q)
    = some (⟨nickAt start (q ++ p), userAt start (q ++ p),
        Span.mk' (hostStartAt start (q ++ p)) (start + (q ++ p).length)⟩,
        start + (q ++ p).length + 1)
  | [], q, _ => by
    rw [List.nil_append, prefixLoop.eq_def, List.append_nil]
    simp only [if_true]
  | c :: p, q, hp => by
    rw [List.mem_cons, not_or] at hp
    have ih := prefixLoop_eq start rest p (q ++ [c]) hp.2
    rw [List.append_assoc, List.singleton_append] at ih
    have hlen : start + (q ++ [c]).length = start + q.length + 1 := by simp; omega
    rw [hlen] at ih
    rw [List.cons_append, prefixLoop.eq_def]
    simp only [if_neg (Ne.symm hp.1)]
    rw [← ih]
    by_cases h1 : c = AT
    · subst h1
      have hb : cutLast BANG (q ++ [AT]) = (cutLast BANG q).map fun r => (r.1, r.2 ++ [AT]) := by
        rw [cutLast_snoc, if_neg (by decide)]
      have ha : cutLast AT (q ++ [AT]) = some (q, []) := by rw [cutLast_snoc, if_pos rfl]
      have e1 : hostStartAt start (q ++ [AT]) = start + q.length + 1 := by
        simp [hostStartAt, ha]
      have e3 : nickEndAt start (q ++ [AT]) = nickEndAt start q := by
        simp [nickEndAt, hb, Function.comp_def]
      rw [if_pos rfl, e1, e3]
      cases hq : cutLast BANG q with
      | none =>
        have e2 : nickAt start (q ++ [AT]) = some (Span.mk' start (start + q.length)) := by
          simp [nickAt, hb, hq, ha]
        have e4 : userAt start (q ++ [AT]) = userAt start q := by
          rw [userAt_none hq]; simp [userAt, ha, hq]
        have e5 : nickEndAt start q = none := by simp [nickEndAt, hq]
        rw [e2, e4, e5]
      | some r =>
        have e2 : nickAt start (q ++ [AT]) = nickAt start q := by
          simp [nickAt, hb, hq]
        have e4 : userAt start (q ++ [AT])
            = some (Span.mk' (start + r.1.length + 1) (start + q.length)) := by
          simp [userAt, ha, hq]
        have e5 : nickEndAt start q = some (start + r.1.length) := by simp [nickEndAt, hq]
        rw [e2, e4, e5]
    · rw [if_neg h1]
      by_cases h2 : c = BANG
      · subst h2
        have hb : cutLast BANG (q ++ [BANG]) = some (q, []) := by rw [cutLast_snoc, if_pos rfl]
        have ha : cutLast AT (q ++ [BANG]) = (cutLast AT q).map fun r => (r.1, r.2 ++ [BANG]) := by
          rw [cutLast_snoc, if_neg (by decide)]
        have e1 : hostStartAt start (q ++ [BANG]) = hostStartAt start q := by
          unfold hostStartAt; rw [ha]; cases cutLast AT q <;> rfl
        have e2 : nickAt start (q ++ [BANG]) = some (Span.mk' start (start + q.length)) := by
          simp [nickAt, hb]
        have e3 : nickEndAt start (q ++ [BANG]) = some (start + q.length) := by
          simp [nickEndAt, hb]
        have e4 : userAt start (q ++ [BANG]) = userAt start q := by
          unfold userAt; rw [ha]; cases cutLast AT q <;> rfl
        rw [if_pos rfl, e1, e2, e3, e4]
      · have hb : cutLast BANG (q ++ [c]) = (cutLast BANG q).map fun r => (r.1, r.2 ++ [c]) := by
          rw [cutLast_snoc, if_neg h2]
        have ha : cutLast AT (q ++ [c]) = (cutLast AT q).map fun r => (r.1, r.2 ++ [c]) := by
          rw [cutLast_snoc, if_neg h1]
        have e1 : hostStartAt start (q ++ [c]) = hostStartAt start q := by
          unfold hostStartAt; rw [ha]; cases cutLast AT q <;> rfl
        have e2 : nickAt start (q ++ [c]) = nickAt start q := by
          unfold nickAt; rw [ha, hb]
          cases cutLast BANG q <;> cases cutLast AT q <;> rfl
        have e3 : nickEndAt start (q ++ [c]) = nickEndAt start q := by
          unfold nickEndAt; rw [hb]; cases cutLast BANG q <;> rfl
        have e4 : userAt start (q ++ [c]) = userAt start q := by
          unfold userAt; rw [ha]; cases cutLast AT q <;> rfl
        rw [if_neg h2, e1, e2, e3, e4]

theorem prefixLoop_no_space (start : Nat) : ∀ (p : Bytes) (i hs : Nat) (nick : Option Span)
    (ne : Option Nat) (user : Option Span), SP ∉ p → prefixLoop start p i hs nick ne user = none
  | [], _, _, _, _, _, _ => rfl
  | c :: p, i, hs, nick, ne, user, h => by
    rw [List.mem_cons, not_or] at h
    have ih := fun i hs nick ne user => prefixLoop_no_space start p i hs nick ne user h.2
    rw [prefixLoop.eq_def]
    simp only [if_neg (Ne.symm h.1)]
    split
    · cases ne <;> exact ih _ _ _ _ _
    · split <;> exact ih _ _ _ _ _

/-- Slice lemma in the form used for spans. -/
theorem span_get {src A k B : Bytes} (hsrc : src = A ++ (k ++ B)) (hk : Utf8 k) (hB : Utf8 B)
    (hlen : src.length < 4294967296) {i j : Nat} (hi : i = A.length) (hj : j = A.length + k.length) :
    (Span.mk' i j).get src = .ok k := by
  subst hi hj
  have h1 : asU32 A.length = A.length := by
    unfold asU32; apply Nat.mod_eq_of_lt; rw [hsrc] at hlen; simp at hlen; omega
  have h2 : asU32 (A.length + k.length) = A.length + k.length := by
    unfold asU32; apply Nat.mod_eq_of_lt; rw [hsrc] at hlen; simp at hlen; omega
  unfold Span.get Span.mk'
  simp only [h1, h2]
  rw [hsrc]
  exact strSlice_append (hk.append hB) hB

theorem parsePrefix_some {pre p rest : Bytes} (hp : SP ∉ p) (hup : Utf8 p) (hur : Utf8 rest)
    (hlen : (pre ++ COLON :: (p ++ SP :: rest)).length < 4294967296) :
    ∃ rp, parsePrefix (pre ++ COLON :: (p ++ SP :: rest)) pre.length
        = .ok (some rp, (pre ++ COLON :: (p ++ [SP])).length) ∧
      rp.get (pre ++ COLON :: (p ++ SP :: rest)) = .ok ⟨nickOf p, userOf p, hostOf p⟩ := by
  have hu : Utf8 (COLON :: (p ++ SP :: rest)) :=
    .cons (by decide) (hup.append (.cons (by decide) hur))
  have hur' : Utf8 (SP :: rest) := .cons (by decide) hur
  refine ⟨⟨nickAt (pre.length + 1) p, userAt (pre.length + 1) p,
    Span.mk' (hostStartAt (pre.length + 1) p) (pre.length + 1 + p.length)⟩, ?_, ?_⟩
  · unfold parsePrefix
    rw [strFrom_append hu, bind_ok]
    simp only [startsWith, beq_self_eq_true, Bool.not_true, Bool.false_eq_true, if_false]
    have hd : (pre ++ COLON :: (p ++ SP :: rest)).drop (pre.length + 1) = p ++ SP :: rest := by
      rw [List.drop_append]; simp
    rw [hd]
    have := prefixLoop_eq (pre.length + 1) rest p [] hp
    simp only [List.nil_append, List.length_nil, Nat.add_zero] at this
    have h0 : hostStartAt (pre.length + 1) [] = pre.length + 1 := rfl
    have h1 : nickAt (pre.length + 1) [] = none := rfl
    have h2 : nickEndAt (pre.length + 1) [] = none := rfl
    have h3 : userAt (pre.length + 1) [] = none := rfl
    rw [h0, h1, h2, h3] at this
    rw [this]
    simp [pure, Except.pure]
    omega
  · have hA : (pre ++ COLON :: (p ++ SP :: rest)) = (pre ++ [COLON]) ++ (p ++ SP :: rest) := by simp
    have hnick : optSlice (pre ++ COLON :: (p ++ SP :: rest)) (nickAt (pre.length + 1) p)
        = .ok (nickOf p) := by
      unfold nickAt nickOf
      cases hb : cutLast BANG p with
      | some r =>
        obtain ⟨n, b⟩ := r
        obtain ⟨rfl, _⟩ := cutLast_some hb
        have hun := hup.split (x := BANG) (by decide)
        simp only [optSlice]
        rw [span_get (A := pre ++ [COLON]) (k := n) (B := BANG :: (b ++ SP :: rest))
          (by simp) hun.1 (.cons (by decide) (hun.2.append hur')) hlen (by simp) (by simp)]
        rfl
      | none =>
        simp only []
        cases ha : cutLast AT p with
        | none => rfl
        | some r =>
          obtain ⟨n, b⟩ := r
          obtain ⟨rfl, _⟩ := cutLast_some ha
          have hun := hup.split (x := AT) (by decide)
          simp only [optSlice, Option.map_some]
          rw [span_get (A := pre ++ [COLON]) (k := n) (B := AT :: (b ++ SP :: rest))
            (by simp) hun.1 (.cons (by decide) (hun.2.append hur')) hlen (by simp) (by simp)]
          rfl
    have huser : optSlice (pre ++ COLON :: (p ++ SP :: rest)) (userAt (pre.length + 1) p)
        = .ok (userOf p) := by
      unfold userAt userOf
      cases ha : cutLast AT p with
      | none => rfl
      | some r =>
        obtain ⟨q, h⟩ := r
        obtain ⟨rfl, _⟩ := cutLast_some ha
        have huq := hup.split (x := AT) (by decide)
        simp only []
        cases hb : cutLast BANG q with
        | none => rfl
        | some r =>
          obtain ⟨n, u⟩ := r
          obtain ⟨rfl, _⟩ := cutLast_some hb
          have hun := huq.1.split (x := BANG) (by decide)
          simp only [optSlice, Option.map_some]
          rw [span_get (A := pre ++ COLON :: (n ++ [BANG])) (k := u)
            (B := AT :: (h ++ SP :: rest))
            (by simp) hun.2 (.cons (by decide) (huq.2.append hur')) hlen (by simp; omega)
            (by simp; omega)]
          rfl
    have hhost : (Span.mk' (hostStartAt (pre.length + 1) p) (pre.length + 1 + p.length)).get
        (pre ++ COLON :: (p ++ SP :: rest)) = .ok (hostOf p) := by
      unfold hostStartAt hostOf
      cases ha : cutLast AT p with
      | none =>
        simp only []
        exact span_get (A := pre ++ [COLON]) (k := p) (B := SP :: rest) (by simp) hup hur' hlen
          (by simp) (by simp)
      | some r =>
        obtain ⟨q, h⟩ := r
        obtain ⟨rfl, _⟩ := cutLast_some ha
        have huq := hup.split (x := AT) (by decide)
        simp only []
        exact span_get (A := pre ++ COLON :: (q ++ [AT])) (k := h) (B := SP :: rest) (by simp)
          huq.2 hur' hlen (by simp; omega) (by simp; omega)
    unfold RawPrefix.get
    simp only [hnick, huser, hhost, bind_ok]
    rfl

theorem parsePrefix_none {pre s : Bytes} (hs : Utf8 s) (h : ∀ r, s = COLON :: r → SP ∉ r) :
    parsePrefix (pre ++ s) pre.length = .ok (none, pre.length) := by
  unfold parsePrefix
  rw [strFrom_append hs, bind_ok]
  cases s with
  | nil => rfl
  | cons c r =>
    by_cases hc : c = COLON
    · subst hc
      have hd : (pre ++ COLON :: r).drop (pre.length + 1) = r := by
        rw [List.drop_append]; simp
      simp only [startsWith, beq_self_eq_true, Bool.not_true, Bool.false_eq_true, if_false, hd]
      rw [prefixLoop_no_space _ _ _ _ _ _ _ (h r rfl)]
      rfl
    · simp [startsWith, hc, pure, Except.pure]

end Tmi.Model
