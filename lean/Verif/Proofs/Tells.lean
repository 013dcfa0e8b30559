/-
Lemmas for C77: the texts of the model are laid out as the specification says.
-/
import Verif.Spec.Tells
import Verif.Proofs.DebugDate

namespace Tmi.Proofs
open Model hiding Kind
open Spec

/-! ### Layout -/

theorem pad_line (t : Bytes) (nl : Bool) : pad nl (t ++ b!",\n") =
    (if nl then b!"    " else []) ++ (t.flatMap fun c => if c = 0x0A then b!"\n    " else [c]) ++ b!",\n" := by
  induction t generalizing nl with
  | nil => cases nl <;> rfl
  | cons c t ih =>
    rw [List.cons_append, pad, ih, List.flatMap_cons]
    by_cases hc : c = 0x0A
    · subst hc; simp
    · rw [if_neg hc, show (c == 0x0A) = false from beq_eq_false_iff_ne.2 hc]
      simp

theorem pad_indent (t : Bytes) : pad true (t ++ b!",\n") = indent t ++ b!",\n" := by
  rw [pad_line]
  rfl

theorem commas_cons (t : Bytes) (rest : List Bytes) : commas (t :: rest) = t ++ rest.flatMap (b!", " ++ ·) := by
  induction rest generalizing t with
  | nil => simp [commas]
  | cons u rest ih => rw [commas, ih, List.flatMap_cons, List.append_assoc, List.append_assoc]

/-- A field as it is printed. -/
def fieldText (esc : Nat → Bool) (alt : Bool) (f : Bytes × Dbg) : Bytes := f.1 ++ b!": " ++ f.2.text esc alt

theorem text_false (esc : Nat → Bool) (d : Dbg) : d.text esc false = d.compact esc := rfl
theorem text_true (esc : Nat → Bool) (d : Dbg) : d.text esc true = d.pretty esc := rfl

theorem fields_compact (esc : Nat → Bool) : ∀ fs : List (Bytes × Dbg), (∀ f ∈ fs, f.1 ≠ []) →
    (Items.ofFields fs).compact esc = (fs.map (fieldText esc false)).flatMap (b!", " ++ ·)
  | [], _ => by simp [Items.ofFields, Items.compact]
  | (l, v) :: fs, h => by
    have hl : l ≠ [] := h (l, v) (List.mem_cons_self ..)
    rw [Items.ofFields, Items.compact, fields_compact esc fs fun f hf => h f (List.mem_cons_of_mem _ hf), labelText,
      if_neg hl, List.map_cons, List.flatMap_cons, fieldText, text_false]
    simp only [List.append_assoc]

theorem fields_pretty (esc : Nat → Bool) : ∀ fs : List (Bytes × Dbg), (∀ f ∈ fs, f.1 ≠ []) →
    (Items.ofFields fs).pretty esc = (fs.map (fieldText esc true)).flatMap fun t => indent t ++ b!",\n"
  | [], _ => by simp [Items.ofFields, Items.pretty]
  | (l, v) :: fs, h => by
    have hl : l ≠ [] := h (l, v) (List.mem_cons_self ..)
    rw [Items.ofFields, Items.pretty, fields_pretty esc fs fun f hf => h f (List.mem_cons_of_mem _ hf), labelText,
      if_neg hl, List.map_cons, List.flatMap_cons, fieldText, text_true, pad_indent]

theorem list_compact (esc : Nat → Bool) : ∀ ds : List Dbg,
    (Items.ofList ds).compact esc = (ds.map (·.text esc false)).flatMap (b!", " ++ ·)
  | [] => by simp [Items.ofList, Items.compact]
  | v :: ds => by
    rw [Items.ofList, Items.compact, list_compact esc ds, labelText, if_pos rfl, List.map_cons, List.flatMap_cons,
      text_false]
    simp only [List.append_assoc, List.nil_append]

theorem list_pretty (esc : Nat → Bool) : ∀ ds : List Dbg,
    (Items.ofList ds).pretty esc = (ds.map (·.text esc true)).flatMap fun t => indent t ++ b!",\n"
  | [] => by simp [Items.ofList, Items.pretty]
  | v :: ds => by
    rw [Items.ofList, Items.pretty, list_pretty esc ds, labelText, if_pos rfl, List.map_cons, List.flatMap_cons,
      text_true, List.nil_append, pad_indent]

theorem struct_braces (esc : Nat → Bool) (alt : Bool) (name : Bytes) (fs : List (Bytes × Dbg)) (h0 : fs ≠ [])
    (h : ∀ f ∈ fs, f.1 ≠ []) :
    (Dbg.struct name fs).text esc alt = braces alt name (fs.map (fieldText esc alt)) := by
  cases fs with
  | nil => exact absurd rfl h0
  | cons f fs =>
    obtain ⟨l, v⟩ := f
    have hl : l ≠ [] := h (l, v) (List.mem_cons_self ..)
    have h' : ∀ f ∈ fs, f.1 ≠ [] := fun f hf => h f (List.mem_cons_of_mem _ hf)
    cases alt with
    | false =>
      rw [text_false, Dbg.struct, Items.ofFields, Dbg.compact, fields_compact esc fs h', labelText, if_neg hl, braces,
        bracket, List.map_cons, commas_cons, fieldText, text_false]
      simp [List.append_assoc]
    | true =>
      rw [text_true, Dbg.struct, Items.ofFields, Dbg.pretty, fields_pretty esc fs h', labelText, if_neg hl, braces,
        bracket, List.map_cons, List.flatMap_cons, fieldText, text_true, pad_indent]
      simp [List.append_assoc]

theorem tuple_parens (esc : Nat → Bool) (alt : Bool) (name : Bytes) (ds : List Dbg) (h0 : ds ≠ []) :
    (Dbg.tuple name ds).text esc alt = parens alt name (ds.map (·.text esc alt)) := by
  cases ds with
  | nil => exact absurd rfl h0
  | cons v ds =>
    cases alt with
    | false =>
      rw [text_false, Dbg.tuple, Items.ofList, Dbg.compact, list_compact, labelText, if_pos rfl, parens,
        bracket, List.map_cons, commas_cons, text_false]
      simp [List.append_assoc]
    | true =>
      rw [text_true, Dbg.tuple, Items.ofList, Dbg.pretty, list_pretty, labelText, if_pos rfl, parens,
        bracket, List.map_cons, List.flatMap_cons, text_true, List.nil_append, pad_indent]
      simp [List.append_assoc]

theorem list_squares (esc : Nat → Bool) (alt : Bool) (ds : List Dbg) :
    (Dbg.list ds).text esc alt = squares alt (ds.map (·.text esc alt)) := by
  cases ds with
  | nil => cases alt <;> simp [Dbg.text, Dbg.list, Items.ofList, Dbg.compact, Dbg.pretty, squares]
  | cons v ds =>
    rw [squares, if_neg (by simp)]
    cases alt with
    | false =>
      rw [text_false, Dbg.list, Items.ofList, Dbg.compact, list_compact, labelText, if_pos rfl,
        bracket, List.map_cons, commas_cons, text_false]
      simp [List.append_assoc]
    | true =>
      rw [text_true, Dbg.list, Items.ofList, Dbg.pretty, list_pretty, labelText, if_pos rfl,
        bracket, List.map_cons, List.flatMap_cons, text_true, List.nil_append, pad_indent]
      simp [List.append_assoc]

theorem atom_text (esc : Nat → Bool) (alt : Bool) (t : Bytes) : (Dbg.atom t).text esc alt = t := by
  cases alt <;> simp [Dbg.text, Dbg.compact, Dbg.pretty]

theorem str_text (esc : Nat → Bool) (alt : Bool) (s : Bytes) : (Dbg.str s).text esc alt = debugStr esc s := by
  cases alt <;> simp [Dbg.text, Dbg.compact, Dbg.pretty]

theorem opt_text {α : Type} (esc : Nat → Bool) (alt : Bool) (f : α → Dbg) (v : Option α) :
    (dbgOpt f v).text esc alt = optionally alt (fun x => (f x).text esc alt) v := by
  cases v with
  | none => exact atom_text ..
  | some v => exact tuple_parens esc alt _ _ (by simp)

/-! ### Durations -/

theorem digitsOf_cons (d f : Nat) (hd : d < 10) : ∀ w, f < 10 ^ w →
    digitsOf (w + 1) (d * 10 ^ w + f) = UInt8.ofNat (48 + d) :: digitsOf w f
  | 0, h => by
    have : f = 0 := by simpa using h
    subst this
    simp [digitsOf, Nat.mod_eq_of_lt hd]
  | w + 1, h => by
    have e : (d * 10 ^ (w + 1) + f) / 10 = d * 10 ^ w + f / 10 := by
      rw [Nat.pow_succ, ← Nat.mul_assoc]; generalize d * 10 ^ w = x; omega
    have e' : (d * 10 ^ (w + 1) + f) % 10 = f % 10 := by
      rw [Nat.pow_succ, ← Nat.mul_assoc]; generalize d * 10 ^ w = x; omega
    have hf : f / 10 < 10 ^ w := by rw [Nat.pow_succ] at h; omega
    rw [digitsOf, e, e', digitsOf_cons d (f / 10) hd w hf, digitsOf]
    rfl

theorem fracDigits_zero (k : Nat) : fracDigits k 0 = [] := by cases k <;> simp [fracDigits]

theorem fracDigits_exact : ∀ (k r : Nat), r < 10 ^ k → r ≠ 0 →
    ∃ w f, w ≤ k ∧ r = f * 10 ^ (k - w) ∧ f % 10 ≠ 0 ∧ f < 10 ^ w ∧ fracDigits k r = digitsOf w f
  | 0, r, h, h0 => by simp at h; omega
  | k + 1, r, h, h0 => by
    have hp : 0 < 10 ^ k := Nat.pow_pos (by omega)
    have hd : r / 10 ^ k < 10 := Nat.div_lt_of_lt_mul (by rw [Nat.pow_succ] at h; exact h)
    have hr := Nat.div_add_mod r (10 ^ k)
    rw [fracDigits, if_neg h0]
    by_cases h1 : r % 10 ^ k = 0
    · rw [h1, fracDigits_zero]
      rw [h1, Nat.add_zero] at hr
      have hne : r / 10 ^ k ≠ 0 := by intro e; rw [e] at hr; simp at hr; omega
      refine ⟨1, r / 10 ^ k, by omega, ?_, by rw [Nat.mod_eq_of_lt hd]; exact hne, by simpa using hd, ?_⟩
      · rw [Nat.add_sub_cancel, Nat.mul_comm]; exact hr.symm
      · simp [digitsOf, Nat.mod_eq_of_lt hd]
    · obtain ⟨w, f, hw, e, hf, hlt, hs⟩ := fracDigits_exact k (r % 10 ^ k) (Nat.mod_lt _ hp) h1
      refine ⟨w + 1, r / 10 ^ k * 10 ^ w + f, by omega, ?_, ?_, ?_, ?_⟩
      · rw [show k + 1 - (w + 1) = k - w by omega, Nat.add_mul, Nat.mul_assoc, ← Nat.pow_add,
          show w + (k - w) = k by omega, ← e, Nat.mul_comm]
        exact hr.symm
      · cases w with
        | zero => simp at hlt; omega
        | succ w =>
          rw [Nat.pow_succ, ← Nat.mul_assoc]; generalize r / 10 ^ k * 10 ^ w = x; omega
      · rw [Nat.pow_succ]
        have : r / 10 ^ k * 10 ^ w ≤ 9 * 10 ^ w := Nat.mul_le_mul_right _ (Nat.le_of_lt_succ hd)
        generalize r / 10 ^ k * 10 ^ w = x at *
        omega
      · rw [hs, digitsOf_cons _ _ hd w hlt]

theorem fmtDecimal_shows {n k : Nat} {unit : Bytes} (hu : unitOf n = (k, unit)) :
    ShowsDuration n (fmtDecimal (n / 10 ^ k) (n % 10 ^ k) k unit) := by
  unfold fmtDecimal
  rw [decNat_eq]
  by_cases h : n % 10 ^ k = 0
  · rw [if_pos h, List.append_nil]
    exact .whole k unit hu h
  · rw [if_neg h]
    obtain ⟨w, f, hw, e, hf, -, hs⟩ := fracDigits_exact k _ (Nat.mod_lt _ (Nat.pow_pos (by omega))) h
    rw [hs]
    have := ShowsDuration.fraction (nanos := n) k unit hu w f hw e hf
    simpa [List.append_assoc] using this

theorem durationText_shows (n : Nat) : ShowsDuration n (durationText n) := by
  unfold durationText
  dsimp only
  by_cases h : n / 1000000000 > 0
  · rw [if_pos h]
    exact fmtDecimal_shows (k := 9) (by unfold unitOf; rw [if_pos (by omega)])
  · have e : n % 1000000000 = n := by omega
    rw [if_neg h, e]
    by_cases h1 : n ≥ 1000000
    · rw [if_pos h1]
      exact fmtDecimal_shows (k := 6) (by unfold unitOf; rw [if_neg (by omega), if_pos (by omega)])
    · rw [if_neg h1]
      by_cases h2 : n ≥ 1000
      · rw [if_pos h2]
        exact fmtDecimal_shows (k := 3) (by unfold unitOf; rw [if_neg (by omega), if_neg (by omega), if_pos (by omega)])
      · rw [if_neg h2]
        have hu : unitOf n = (0, b!"ns") := by
          unfold unitOf; rw [if_neg (by omega), if_neg (by omega), if_neg (by omega)]
        have := ShowsDuration.whole (nanos := n) 0 _ hu (by omega)
        simpa [fmtDecimal, decNat_eq] using this

/-! ### Values -/

variable {esc : Nat → Bool} {alt : Bool} {tc : TimeCodec} {ty : Bytes}

theorem decInt_eq (n : Int) : decInt n = showInt n := by
  unfold decInt showInt
  rw [decNat_eq]

theorem t_str (s : Bytes) : Tells esc alt tc [] ((Dbg.str s).text esc alt) (.str s) := by
  rw [str_text]; exact .str s

theorem t_bool (v : Bool) : Tells esc alt tc [] ((dbgBool v).text esc alt) (.bool v) := by
  rw [dbgBool, atom_text]; exact .flag v

theorem t_int (n : Int) : Tells esc alt tc [] ((dbgInt n).text esc alt) (.num n) := by
  rw [dbgInt, atom_text, decInt_eq]; exact .num n

theorem t_nat (n : Nat) : Tells esc alt tc [] ((dbgNat n).text esc alt) (serNat n) := by
  rw [dbgNat, atom_text, decNat_eq]
  have := Tells.num (esc := esc) (alternate := alt) (tc := tc) (n : Int)
  rw [show showInt (n : Int) = showNat n by
    unfold showInt; rw [if_neg (by omega), Int.natAbs_natCast]] at this
  exact this

theorem t_time (t : Timestamp) : Tells esc alt tc (b!"DateTime") ((dbgTime t).text esc alt) (tc.ser t) := by
  rw [dbgTime, atom_text]; exact .time t (timestampText_shows t)

theorem t_duration (n : Nat) : Tells esc alt tc (b!"Duration") ((dbgDuration n).text esc alt) (serDuration n) := by
  rw [dbgDuration, atom_text]
  refine .duration (n / 1000000000) (n % 1000000000) (Nat.mod_lt _ (by omega)) ?_
  rw [show n / 1000000000 * 1000000000 + n % 1000000000 = n by omega]
  exact durationText_shows n

theorem m_opt {α : Type} {f : α → Dbg} {g : α → Value} (h : ∀ x, Tells esc alt tc ty ((f x).text esc alt) (g x))
    (v : Option α) {opt : Prop} (ho : opt) :
    TellsMaybe esc alt tc opt ty ((dbgOpt f v).text esc alt) (serOption g v) := by
  rw [opt_text]
  cases v with
  | none => exact .none ho
  | some v => exact .some ho (h v)

theorem t_list {α : Type} {f : α → Dbg} {g : α → Value} (h : ∀ x, Tells esc alt tc ty ((f x).text esc alt) (g x))
    (l : List α) : Tells esc alt tc ty ((dbgList f l).text esc alt) (serSeq g l) := by
  rw [dbgList, list_squares]
  refine .list ?_
  induction l with
  | nil => exact .nil
  | cons x l ih => exact .cons (h x) ih

theorem t_unit (name : Bytes) (tag : Bytes) (hn : name ∈ variantsOf ty) (ht : tag = variantTag ty name) :
    Tells esc alt tc ty ((Dbg.atom name).text esc alt) (.str tag) := by
  rw [atom_text, ht]; exact .unit hn

theorem t_variant {name tag p : Bytes} {d : Dbg} {v : Value} (hn : name ∈ variantsOf ty) (ht : tag = variantTag ty name)
    (he : name ≠ b!"Enabled") (hp : payloadOf name = p) (h : Tells esc alt tc p (d.text esc alt) v) :
    Tells esc alt tc ty ((Dbg.tuple name [d]).text esc alt) (.map [(tag, v)]) := by
  rw [tuple_parens _ _ _ _ (by simp), ht]; subst hp; exact .variant hn (.here he h)

/-- The fields of a struct. -/
def Fields (esc : Nat → Bool) (alt : Bool) (tc : TimeCodec) (ty : Bytes) (fs : List (Bytes × Dbg))
    (kvs : List (Bytes × Value)) : Prop :=
  (∀ f ∈ fs, f.1 ≠ []) ∧ TellsFields esc alt tc ty (fs.map (fieldText esc alt)) kvs

theorem f_nil (hn : ty ≠ b!"Subscriber") : Fields esc alt tc ty [] [] := ⟨by simp, .nil hn⟩

theorem f_maybe {label : Bytes} {d : Dbg} {v : Value} {fs : List (Bytes × Dbg)} {kvs : List (Bytes × Value)}
    (h0 : label ≠ [])
    (h : TellsMaybe esc alt tc (label ∈ optionalIn ty) (typeOf ty label) (d.text esc alt) v) (hs : Fields esc alt tc ty fs kvs) :
    Fields esc alt tc ty ((label, d) :: fs) ((label, v) :: kvs) := by
  refine ⟨fun f hf => ?_, .cons h hs.2⟩
  rcases List.mem_cons.1 hf with rfl | hf
  · exact h0
  · exact hs.1 f hf

theorem f_cons {label p : Bytes} {d : Dbg} {v : Value} {fs : List (Bytes × Dbg)} {kvs : List (Bytes × Value)}
    (h0 : label ≠ []) (ho : label ∉ optionalIn ty) (hty : typeOf ty label = p)
    (h : Tells esc alt tc p (d.text esc alt) v) (hs : Fields esc alt tc ty fs kvs) :
    Fields esc alt tc ty ((label, d) :: fs) ((label, v) :: kvs) := by
  subst hty
  exact f_maybe h0 (.here ho h) hs

theorem f_opt {label p : Bytes} {α : Type} {f : α → Dbg} {g : α → Value} {v : Option α} {fs : List (Bytes × Dbg)}
    {kvs : List (Bytes × Value)} (h0 : label ≠ []) (ho : label ∈ optionalIn ty) (hty : typeOf ty label = p)
    (h : ∀ x, Tells esc alt tc p ((f x).text esc alt) (g x)) (hs : Fields esc alt tc ty fs kvs) :
    Fields esc alt tc ty ((label, dbgOpt f v) :: fs) ((label, serOption g v) :: kvs) := by
  subst hty
  exact f_maybe h0 (m_opt h v ho) hs

theorem t_struct {fs : List (Bytes × Dbg)} {kvs : List (Bytes × Value)} (h0 : fs ≠ []) (hn : ty ∈ structTypes)
    (h : Fields esc alt tc ty fs kvs) : Tells esc alt tc ty ((Dbg.struct ty fs).text esc alt) (.map kvs) := by
  rw [struct_braces esc alt _ fs h0 h.1]
  exact .struct hn h.2

macro "f_with" t:term : tactic => `(tactic| refine f_cons (by decide) (by decide) (by decide) $t ?_)
macro "f_may" t:term : tactic => `(tactic| refine f_opt (by decide) (by decide) (by decide) $t ?_)

end Tmi.Proofs
