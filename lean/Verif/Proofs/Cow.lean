/-
Whether an unescaped text is borrowed or copied, and how long it is.
-/
import Verif.Model.Cow
import Verif.Proofs.Escape
import Verif.Proofs.Search

namespace Tmi.Proofs
open Tmi.Model
open Tmi.Spec

theorem unescapeFrom_plain {c : Cow} : ∀ {rest : Bytes} (i : Nat), BSLASH ∉ rest → c.unescapeFrom rest i = .ok c
  | [], _, _ => rfl
  | x :: t, i, h => by
    unfold Cow.unescapeFrom
    rw [if_neg (fun e => h (by rw [e]; exact List.mem_cons_self))]
    exact unescapeFrom_plain _ (fun e => h (List.mem_cons_of_mem _ e))

theorem unescapeFrom_split {c : Cow} (t : Bytes) : ∀ {a : Bytes} (i : Nat), BSLASH ∉ a →
    c.unescapeFrom (a ++ BSLASH :: t) i = (actuallyUnescape c.text (i + a.length)).map .owned
  | [], i, _ => by
    rw [List.nil_append]
    unfold Cow.unescapeFrom
    rw [if_pos rfl]
    cases h : actuallyUnescape c.text i <;> simp [h, bind, Except.bind, Except.map, pure, Except.pure]
  | x :: a, i, h => by
    rw [List.cons_append]
    unfold Cow.unescapeFrom
    rw [if_neg (fun e => h (by rw [e]; exact List.mem_cons_self)),
      unescapeFrom_split t (i + 1) (fun e => h (List.mem_cons_of_mem _ e)), List.length_cons, Nat.add_assoc,
      Nat.add_comm 1]

theorem enc_length_cons (c : Char) (cs : List Char) : (enc (c :: cs)).length = (String.utf8EncodeChar c).length + (enc cs).length := by
  rw [enc_cons, List.length_append]

theorem utf8EncodeChar_pos (c : Char) : 1 ≤ (String.utf8EncodeChar c).length := by
  rw [String.length_utf8EncodeChar]; exact c.utf8Size_pos

/-- Unescaping never makes a text longer. -/
theorem unescapeGo_length : ∀ (cs : List Char) (e : Bool), (enc (unescapeGo cs e)).length ≤ (enc cs).length
  | [], _ => by simp [unescapeGo]
  | c :: cs, e => by
    have ht := unescapeGo_length cs true
    have hf := unescapeGo_length cs false
    have he := unescapeGo_length cs e
    have hp := utf8EncodeChar_pos c
    unfold unescapeGo
    have one : ∀ (d : Char) (l : List Char), String.utf8EncodeChar d = [d.toNat.toUInt8] → (enc (d :: l)).length = 1 + (enc l).length := by
      intro d l hd; rw [enc_length_cons, hd]; rfl
    repeat' split
    all_goals rw [enc_length_cons c cs]
    · rw [one _ _ rfl]; omega
    · rw [one _ _ rfl]; omega
    · rw [one _ _ rfl]; omega
    · rw [one _ _ rfl]; omega
    · rw [one _ _ rfl]; omega
    · rw [one _ _ rfl]; omega
    · omega
    · rw [enc_length_cons]; omega

theorem maybeUnescape_text (c : Cow) : c.maybeUnescape.map Cow.text = maybeUnescape c.text := by
  unfold Cow.maybeUnescape Model.maybeUnescape
  cases h : find BSLASH c.text with
  | none =>
    rw [unescapeFrom_plain 0 (find_eq_none h)]
    rfl
  | some i =>
    obtain ⟨a, b, h1, h2, h3⟩ := find_some h
    have : c.unescapeFrom c.text 0 = (actuallyUnescape c.text i).map .owned := by
      have := unescapeFrom_split (c := c) b 0 h2
      rwa [← h1, h3, Nat.zero_add] at this
    rw [this]
    simp only
    cases actuallyUnescape c.text i <;> rfl

theorem cow_plain (c : Cow) (h : BSLASH ∉ c.text) : c.maybeUnescape = .ok c := unescapeFrom_plain 0 h

theorem cow_escaped (c : Cow) (hs : Utf8 c.text) (h : BSLASH ∈ c.text) :
    ∃ t, c.maybeUnescape = .ok (.owned t) ∧ t.length < c.text.length := by
  obtain ⟨cs, hcs⟩ := hs
  replace hcs : c.text = enc cs := hcs
  have hm : '\\' ∈ cs := by
    have := (ascii_mem_enc (x := BSLASH) (by decide) (cs := cs)).1 (by rw [← hcs]; exact h)
    exact this
  obtain ⟨pre, post, rfl, hpre⟩ := mem_split_char hm
  have h1 := maybeUnescape_split pre post hpre
  rw [← hcs, ← maybeUnescape_text] at h1
  obtain ⟨a, b, h2, h3⟩ := mem_split h
  have h4 : c.maybeUnescape = (actuallyUnescape c.text a.length).map .owned := by
    have := unescapeFrom_split (c := c) b 0 h3
    rwa [← h2, Nat.zero_add] at this
  rw [h4] at h1 ⊢
  cases e : actuallyUnescape c.text a.length with
  | error f => rw [e] at h1; cases h1
  | ok t =>
    rw [e] at h1
    have h5 : t = enc (pre ++ unescapeGo ('\\' :: post) false) := by
      injection h1
    refine ⟨t, rfl, ?_⟩
    have h6 := unescapeGo_length post true
    have h7 : unescapeGo ('\\' :: post) false = unescapeGo post true := unescapeGo_backslash post
    have h8 := utf8EncodeChar_pos '\\'
    rw [hcs, h5, h7, enc_append, enc_append, List.length_append, List.length_append, enc_length_cons]
    omega

end Tmi.Proofs
