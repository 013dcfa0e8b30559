/-
Lemmas on deserialisation: what each type accepts.
-/
import Verif.Spec.Shape
import Verif.Proofs.Serde

namespace Tmi.Proofs
open Model Spec

/-- Reading yields `a` exactly from the ways to write what is written for `a`, if that can be read at all. -/
def Reads {α : Type} (F : Form) (de : Value → Option α) (ser : α → Value) : Prop :=
  ∀ v a, de v = some a ↔ F v (ser a) ∧ de (ser a) = some a

/-- The same for the content of one variant of an enum. -/
def ReadsPart {α : Type} (F : Form) (de : Value → Option α) (ser : α → Option Value) : Prop :=
  ∀ v a, de v = some a ↔ ∃ c, ser a = some c ∧ F v c ∧ de c = some a

/-- Null is not such a way. -/
def NoNull (F : Form) : Prop := ∀ x, ¬ F .null x ∧ ¬ F x .null

theorem reads_text : Reads .text deStr Value.str := by
  intro v a
  cases v <;> simp [deStr, Form.text, eq_comm]

theorem reads_flag : Reads .flag deBool Value.bool := by
  intro v a
  cases v <;> simp [deBool, Form.flag, eq_comm]

theorem reads_i64 : Reads .i64 deI64 Value.num := by
  intro v a
  cases v with
  | num n =>
    simp only [deI64, Form.i64, Form.number]
    constructor
    · intro h
      by_cases hn : i64Min ≤ n ∧ n ≤ i64Max
      · rw [if_pos hn] at h
        cases h
        have hn' := hn
        simp only [i64Min, i64Max] at hn'
        exact ⟨⟨_, by omega, by omega, rfl, rfl⟩, by rw [if_pos hn]⟩
      · rw [if_neg hn] at h
        cases h
    · rintro ⟨⟨m, h1, h2, h3, h4⟩, h5⟩
      cases h3; cases h4
      exact h5
  | _ => simp [deI64, Form.i64, Form.number]

theorem reads_u64 : Reads .u64 deU64 serNat := by
  intro v a
  cases v with
  | num n =>
    simp only [deU64, Form.u64, Form.number, serNat]
    constructor
    · intro h
      by_cases hn : 0 ≤ n ∧ n ≤ u64Max
      · rw [if_pos hn] at h
        cases h
        have : ((n.toNat : Nat) : Int) = n := by omega
        rw [this]
        have hn' := hn
        simp only [u64Max] at hn'
        exact ⟨⟨n, by omega, by omega, rfl, rfl⟩, by rw [if_pos hn]⟩
      · rw [if_neg hn] at h
        cases h
    · rintro ⟨⟨m, h1, h2, h3, h4⟩, h5⟩
      cases h3; cases h4
      exact h5
  | _ => simp [deU64, Form.u64, Form.number]

theorem reads_time {tc : TimeCodec} (hc : TimeCodec.Stable tc) : Reads (.time tc) tc.de tc.ser := by
  intro v a
  cases v with
  | str s =>
    simp only [TimeCodec.de, TimeCodec.ser, Form.time]
    constructor
    · intro h
      exact ⟨⟨s, a, h, rfl, rfl⟩, hc s a h⟩
    · rintro ⟨⟨s', t, h1, h2, h3⟩, h4⟩
      cases h2
      have := hc s t h1
      simp only [Value.str.injEq] at h3
      rw [← h3, h4] at this
      cases this
      exact h1
  | _ => simp [TimeCodec.de, Form.time]

theorem noNull_text : NoNull .text := fun x => by simp [Form.text]
theorem noNull_flag : NoNull .flag := fun x => by simp [Form.flag]
theorem noNull_u64 : NoNull .u64 := fun x => by simp [Form.u64, Form.number]
theorem noNull_duration : NoNull .duration := fun x => by
  constructor
  · rintro ⟨_, _, _, _, _, h | h | h⟩ <;> cases h
  · rintro ⟨_, _, _, _, h, _⟩; cases h
theorem noNull_object (fs : List Field) : NoNull (.object fs) := fun x => by
  constructor
  · rintro ⟨_, _, ⟨_, h, _⟩ | ⟨_, h, _⟩⟩ <;> cases h
  · rintro ⟨_, h, _⟩; cases h
theorem noNull_oneOf (u : List Bytes) (p : List (Bytes × Form)) : NoNull (.oneOf u p) := fun x => by
  constructor
  · rintro (⟨_, _, h | h, _⟩ | ⟨_, _, _, _, h, _⟩) <;> cases h
  · rintro (⟨_, _, _, h⟩ | ⟨_, _, _, _, _, h, _⟩) <;> cases h

theorem deOption_of_ne {α : Type} {de : Value → Option α} {v : Value} (h : v ≠ .null) :
    deOption de v = (de v).map some := by
  cases v <;> first | rfl | exact absurd rfl h

theorem reads_option {α : Type} {F : Form} {de : Value → Option α} {ser : α → Value} (h : Reads F de ser)
    (hn : NoNull F) : Reads (.orNull F) (deOption de) (serOption ser) := by
  intro v o
  by_cases hv : v = .null
  · subst hv
    cases o with
    | none => simp [deOption, serOption, Form.orNull]
    | some a =>
      constructor
      · intro h'; cases h'
      · rintro ⟨h1 | h1, h2⟩
        · rw [h1.2] at h2
          cases h2
        · exact absurd h1 (hn _).1
  · rw [deOption_of_ne hv]
    cases o with
    | none =>
      constructor
      · intro h'; cases hd : de v <;> rw [hd] at h' <;> cases h'
      · rintro ⟨h1 | h1, h2⟩
        · exact absurd h1.1 hv
        · exact absurd h1 (hn _).2
    | some a =>
      have hs : (de v).map some = some (some a) ↔ de v = some a := by
        cases de v <;> simp
      rw [hs, h v a]
      constructor
      · rintro ⟨h1, h2⟩
        refine ⟨.inr h1, ?_⟩
        have : ser a ≠ .null := fun e => (hn v).2 (e ▸ h1)
        show deOption de (ser a) = _
        rw [deOption_of_ne this, h2]
        rfl
      · rintro ⟨h1 | h1, h2⟩
        · exact absurd h1.1 hv
        · refine ⟨h1, ?_⟩
          have : ser a ≠ .null := fun e => (hn v).2 (e ▸ h1)
          have h2 : deOption de (ser a) = _ := h2
          rw [deOption_of_ne this] at h2
          revert h2
          cases de (ser a) <;> simp

theorem mapM_each {α : Type} {F : Form} {de : Value → Option α} {ser : α → Value} (h : Reads F de ser) :
    ∀ (l : List Value) (m : List α), l.mapM de = some m ↔ Form.Each F l (m.map ser) ∧ ∀ a ∈ m, de (ser a) = some a
  | [], m => by
    cases m with
    | nil => simp [Form.Each.nil]
    | cons a m =>
      simp only [List.mapM_nil, List.map_cons]
      constructor
      · intro h; cases h
      · rintro ⟨h, _⟩; cases h
  | v :: l, m => by
    simp only [List.mapM_cons, Option.bind_eq_bind, Option.bind_eq_some_iff]
    constructor
    · rintro ⟨a, ha, t, ht, h2⟩
      cases h2
      obtain ⟨h3, h4⟩ := (h v a).1 ha
      obtain ⟨h5, h6⟩ := (mapM_each h l t).1 ht
      refine ⟨.cons h3 h5, fun x hx => ?_⟩
      rcases List.mem_cons.1 hx with rfl | hx
      · exact h4
      · exact h6 x hx
    · rintro ⟨h1, h2⟩
      cases m with
      | nil => cases h1
      | cons a t =>
        cases h1 with
        | cons h3 h4 =>
          exact ⟨a, (h v a).2 ⟨h3, h2 a List.mem_cons_self⟩, t,
            (mapM_each h l t).2 ⟨h4, fun x hx => h2 x (List.mem_cons_of_mem _ hx)⟩, rfl⟩

theorem reads_list {α : Type} {F : Form} {de : Value → Option α} {ser : α → Value} (h : Reads F de ser) :
    Reads (.list F) (deSeq de) (serSeq ser) := by
  intro v m
  have hs : deSeq de (serSeq ser m) = some m ↔ ∀ a ∈ m, de (ser a) = some a := by
    show (m.map ser).mapM de = some m ↔ _
    rw [mapM_each h]
    refine ⟨And.right, fun h' => ⟨?_, h'⟩⟩
    induction m with
    | nil => exact .nil
    | cons a m ih =>
      exact .cons ((h _ _).1 (h' a List.mem_cons_self)).1 (ih fun x hx => h' x (List.mem_cons_of_mem _ hx))
  rw [hs]
  cases v with
  | seq l =>
    show l.mapM de = some m ↔ _
    rw [mapM_each h]
    constructor
    · rintro ⟨h1, h2⟩; exact ⟨⟨l, _, rfl, rfl, h1⟩, h2⟩
    · rintro ⟨⟨l', m', e1, e2, h1⟩, h2⟩
      cases e1; cases e2
      exact ⟨h1, h2⟩
  | _ => simp [deSeq, Form.list]

theorem filter_name {kvs : List (Bytes × Value)} {name : Bytes} {kv : Bytes × Value}
    (h : kvs.filter (fun kv => kv.1 == name) = [kv]) : kv.1 = name := by
  have : kv ∈ kvs.filter (fun kv => kv.1 == name) := by rw [h]; exact List.mem_singleton.2 rfl
  simpa using (List.mem_filter.1 this).2

theorem field_reads {α : Type} {F : Form} {de : Value → Option α} {ser : α → Value} (h : Reads F de ser)
    (kvs : List (Bytes × Value)) (name : Bytes) (a : α) :
    field kvs name de = some a ↔ (must name F).among kvs (ser a) ∧ de (ser a) = some a := by
  unfold field Field.among must
  simp only []
  rcases hf : kvs.filter (fun kv => kv.1 == name) with _ | ⟨kv, _ | ⟨kv', l⟩⟩ <;> try rw [hf]
  · simp
  · have hk := filter_name hf
    simp only [h kv.2 a]
    constructor
    · rintro ⟨h1, h2⟩
      exact ⟨.inl ⟨kv.2, by rw [← hk], h1⟩, h2⟩
    · rintro ⟨⟨x, h1, h2⟩ | ⟨h1, _⟩, h3⟩
      · simp only [List.cons.injEq, and_true] at h1
        subst h1
        exact ⟨h2, h3⟩
      · cases h1
  · simp

theorem optField_reads {α : Type} {F : Form} {de : Value → Option α} {ser : α → Value} (h : Reads F de ser)
    (hn : NoNull F) (kvs : List (Bytes × Value)) (name : Bytes) (o : Option α) :
    optField kvs name de = some o ↔
      (may name F).among kvs (serOption ser o) ∧ deOption de (serOption ser o) = some o := by
  unfold optField Field.among may
  simp only []
  rcases hf : kvs.filter (fun kv => kv.1 == name) with _ | ⟨kv, _ | ⟨kv', l⟩⟩ <;> try rw [hf]
  · cases o with
    | none => simp [serOption, deOption]
    | some a =>
      simp only [serOption]
      constructor
      · intro h; cases h
      · rintro ⟨⟨_, h1, _⟩ | ⟨_, _, h1⟩, h2⟩
        · cases h1
        · rw [h1] at h2; cases h2
  · have hk := filter_name hf
    simp only [reads_option h hn kv.2 o]
    constructor
    · rintro ⟨h1, h2⟩
      exact ⟨.inl ⟨kv.2, by rw [← hk], h1⟩, h2⟩
    · rintro ⟨⟨x, h1, h2⟩ | ⟨_, h1, _⟩, h3⟩
      · simp only [List.cons.injEq, and_true] at h1
        subst h1
        exact ⟨h2, h3⟩
      · cases h1
  · simp

/-! ### Structs -/

theorem filter_zip_none {names : List Bytes} {l : List Value} {n : Bytes} (h : n ∉ names) :
    (names.zip l).filter (fun kv => kv.1 == n) = [] := by
  rw [List.filter_eq_nil_iff]
  rintro ⟨k, v⟩ hm hk
  simp only [beq_iff_eq] at hk
  subst hk
  exact h (List.of_mem_zip hm).1

theorem named_skip {fs : List Field} {k : Bytes} {v : Value} (h : ∀ f ∈ fs, f.name ≠ k) :
    ∀ {kvs cs}, named fs ((k, v) :: kvs) cs ↔ named fs kvs cs := by
  induction fs with
  | nil => intro kvs cs; cases cs <;> simp [named]
  | cons f fs ih =>
    intro kvs cs
    cases cs with
    | nil => simp [named]
    | cons c cs =>
      obtain ⟨k', c⟩ := c
      have hf : (k == f.name) = false := by
        exact beq_eq_false_iff_ne.2 fun e => h f List.mem_cons_self e.symm
      simp only [named, ih fun f hf => h f (List.mem_cons_of_mem _ hf), Field.among, List.filter_cons, hf]
      simp

theorem inOrder_iff {fs : List Field} (hn : (fs.map (·.name)).Nodup) :
    ∀ {l cs}, inOrder fs l cs ↔ l.length = fs.length ∧ named fs ((fs.map (·.name)).zip l) cs := by
  induction fs with
  | nil => intro l cs; cases l <;> cases cs <;> simp [inOrder, named]
  | cons f fs ih =>
    intro l cs
    rw [List.map_cons, List.nodup_cons] at hn
    cases l with
    | nil => cases cs <;> simp [inOrder]
    | cons v l =>
      cases cs with
      | nil => simp [inOrder, named]
      | cons c cs =>
        obtain ⟨k, c⟩ := c
        have h0 : ∀ g ∈ fs, g.name ≠ f.name := fun g hg e => hn.1 (List.mem_map.2 ⟨g, hg, e⟩)
        simp only [inOrder, List.map_cons, List.zip_cons_cons, named, named_skip h0, ih hn.2, List.length_cons,
          Nat.add_right_cancel_iff]
        have : f.among ((f.name, v) :: (fs.map (·.name)).zip l) c ↔ f.form v c := by
          unfold Field.among
          simp only [List.filter_cons, beq_self_eq_true, if_pos]
          rw [filter_zip_none hn.1]
          simp
        rw [this]
        constructor
        · rintro ⟨h1, h2, h3, h4⟩; exact ⟨h3, h1, h2, h4⟩
        · rintro ⟨h3, h1, h2, h4⟩; exact ⟨h1, h2, h3, h4⟩

theorem object_iff {fs : List Field} (hn : (fs.map (·.name)).Nodup) (v : Value) (cs : List (Bytes × Value)) :
    Form.object fs v (.map cs) ↔ ∃ kvs, deFields (fs.map (·.name)) v = some kvs ∧ named fs kvs cs := by
  unfold Form.object
  constructor
  · rintro ⟨cs', e, ⟨kvs, rfl, h⟩ | ⟨l, rfl, h⟩⟩
    · cases e; exact ⟨kvs, rfl, h⟩
    · cases e
      obtain ⟨h1, h2⟩ := (inOrder_iff hn).1 h
      exact ⟨_, by simp [deFields, h1], h2⟩
  · rintro ⟨kvs, h1, h2⟩
    refine ⟨cs, rfl, ?_⟩
    cases v with
    | map kvs' => cases h1; exact .inl ⟨kvs, rfl, h2⟩
    | seq l =>
      simp only [deFields, List.length_map] at h1
      split at h1
      · cases h1
        exact .inr ⟨l, rfl, (inOrder_iff hn).2 ⟨by assumption, h2⟩⟩
      · cases h1
    | _ => cases h1

/-- A struct, given what its fields accept. -/
theorem reads_struct {α : Type} {fs : List Field} {de : Value → Option α} {ser : α → Option (List (Bytes × Value))}
    {G : α → Prop} (hn : (fs.map (·.name)).Nodup)
    (hk : ∀ v a, de v = some a ↔
      ∃ kvs cs, deFields (fs.map (·.name)) v = some kvs ∧ ser a = some cs ∧ named fs kvs cs ∧ G a)
    (hg : ∀ a cs, ser a = some cs → G a → named fs cs cs) :
    ReadsPart (.object fs) de (fun a => (ser a).map .map) := by
  intro v a
  simp only [Option.map_eq_some_iff]
  constructor
  · intro h
    obtain ⟨kvs, cs, h1, h2, h3, h4⟩ := (hk v a).1 h
    exact ⟨.map cs, ⟨cs, h2, rfl⟩, (object_iff hn v cs).2 ⟨kvs, h1, h3⟩, (hk _ a).2 ⟨cs, cs, rfl, h2, hg a cs h2 h4, h4⟩⟩
  · rintro ⟨_, ⟨cs, h2, rfl⟩, h3, h4⟩
    obtain ⟨kvs, h5, h6⟩ := (object_iff hn v cs).1 h3
    obtain ⟨_, _, _, _, _, h7⟩ := (hk _ a).1 h4
    exact (hk v a).2 ⟨kvs, cs, h5, h2, h6, h7⟩

/-- The field is found in what is written. -/
theorem among_self {f : Field} {kvs : List (Bytes × Value)} {x : Value}
    (h : kvs.filter (fun kv => kv.1 == f.name) = [(f.name, x)]) (hx : f.form x x) : f.among kvs x :=
  .inl ⟨x, h, hx⟩

theorem ReadsPart.total {α : Type} {F : Form} {de : Value → Option α} {ser : α → Value}
    (h : ReadsPart F de (fun a => some (ser a))) : Reads F de ser := by
  intro v a
  rw [h v a]
  simp

/-! ### Enums -/

theorem lookup_iff {α : Type} {l : List (Bytes × α)} (hn : (l.map (·.1)).Nodup) (k : Bytes) (a : α) :
    l.lookup k = some a ↔ (k, a) ∈ l := by
  induction l with
  | nil => simp
  | cons p l ih =>
    obtain ⟨k', b⟩ := p
    rw [List.map_cons, List.nodup_cons] at hn
    rw [List.lookup_cons]
    by_cases h : k = k'
    · subst h
      simp only [beq_self_eq_true, Option.some.injEq, List.mem_cons, Prod.mk.injEq, true_and]
      constructor
      · rintro rfl; exact .inl rfl
      · rintro (rfl | h)
        · rfl
        · exact absurd (List.mem_map.2 ⟨_, h, rfl⟩) hn.1
    · have : (k == k') = false := by simp [h]
      simp only [this, ih hn.2, List.mem_cons, Prod.mk.injEq, h, false_and, false_or]

theorem lookup_none {α : Type} {l : List (Bytes × α)} {k : Bytes} (h : k ∉ l.map (·.1)) : l.lookup k = none := by
  induction l with
  | nil => rfl
  | cons p l ih =>
    simp only [List.map_cons, List.mem_cons, not_or] at h
    have hk : (k == p.1) = false := beq_eq_false_iff_ne.2 h.1
    rw [List.lookup_cons, hk]
    exact ih h.2

/-- A variant with content. -/
structure Variant (α : Type) where
  name : Bytes
  form : Form
  de : Value → Option α
  part : α → Option Value

theorem reads_enum {α : Type} {units : List (Bytes × α)} {vs : List (Variant α)} {ser : α → Value}
    (hu : (units.map (·.1)).Nodup) (hv : (vs.map (·.name)).Nodup)
    (hd : ∀ u ∈ units.map (·.1), u ∉ vs.map (·.name))
    (hs : ∀ u a, ser a = .str u ↔ (u, a) ∈ units)
    (hp : ∀ e ∈ vs, ∀ a c, ser a = .map [(e.name, c)] ↔ e.part a = some c)
    (hr : ∀ e ∈ vs, ReadsPart e.form e.de e.part) :
    Reads (.oneOf (units.map (·.1)) (vs.map fun e => (e.name, e.form)))
      (deEnum units (vs.map fun e => (e.name, e.de))) ser := by
  have hv' : ((vs.map fun e => (e.name, e.de)).map (·.1)).Nodup := by rw [List.map_map]; exact hv
  -- what reading amounts to
  have key : ∀ v a, deEnum units (vs.map fun e => (e.name, e.de)) v = some a ↔
      (∃ u, (u, a) ∈ units ∧ (v = .str u ∨ v = .map [(u, .null)])) ∨
      (∃ e ∈ vs, ∃ x, v = .map [(e.name, x)] ∧ e.de x = some a) := by
    intro v a
    constructor
    · intro h
      unfold deEnum at h
      split at h
      · exact .inl ⟨_, (lookup_iff hu _ _).1 h, .inl rfl⟩
      · split at h
        · rename_i f hf
          obtain ⟨e, he, e1⟩ := List.mem_map.1 ((lookup_iff hv' _ _).1 hf)
          cases e1
          exact .inr ⟨e, he, _, rfl, h⟩
        · split at h
          · exact .inl ⟨_, (lookup_iff hu _ _).1 h, .inr rfl⟩
          · cases h
      · cases h
    · rintro (⟨u, h1, rfl | rfl⟩ | ⟨e, he, x, rfl, h⟩)
      · exact (lookup_iff hu _ _).2 h1
      · have : (vs.map fun e => (e.name, e.de)).lookup u = none := lookup_none (by
          rw [List.map_map]; exact hd u (List.mem_map.2 ⟨_, h1, rfl⟩))
        simp only [deEnum, this]
        exact (lookup_iff hu _ _).2 h1
      · have : (vs.map fun e => (e.name, e.de)).lookup e.name = some e.de :=
          (lookup_iff hv' _ _).2 (List.mem_map.2 ⟨e, he, rfl⟩)
        simp only [deEnum, this]
        exact h
  intro v a
  rw [key, key]
  constructor
  · rintro (⟨u, h1, h2⟩ | ⟨e, he, x, h1, h2⟩)
    · have := (hs u a).2 h1
      exact ⟨.inl ⟨u, List.mem_map.2 ⟨_, h1, rfl⟩, h2, this⟩, .inl ⟨u, h1, .inl this⟩⟩
    · obtain ⟨c, h3, h4, h5⟩ := (hr e he x a).1 h2
      have := (hp e he a c).2 h3
      exact ⟨.inr ⟨_, List.mem_map.2 ⟨e, he, rfl⟩, x, c, h1, this, h4⟩, .inr ⟨e, he, c, this, h5⟩⟩
  · rintro ⟨⟨u, h1, h2, h3⟩ | ⟨p, hp', x, y, h1, h2, h3⟩, h4⟩
    · exact .inl ⟨u, (hs u a).1 h3, h2⟩
    · obtain ⟨e, he, rfl⟩ := List.mem_map.1 hp'
      have h5 := (hp e he a y).1 h2
      refine .inr ⟨e, he, x, h1, (hr e he x a).2 ⟨y, h5, h3, ?_⟩⟩
      rcases h4 with ⟨u, _, h6 | h6⟩ | ⟨e', he', z, h6, h7⟩
      · rw [h2] at h6; cases h6
      · have := (hs u a).2 (by assumption)
        rw [h2] at this; cases this
      · rw [h2] at h6
        simp only [Value.map.injEq, List.cons.injEq, Prod.mk.injEq, and_true] at h6
        obtain ⟨h8, rfl⟩ := h6
        have : e.de = e'.de := by
          have a1 := (lookup_iff hv' e.name e.de).2 (List.mem_map.2 ⟨e, he, rfl⟩)
          have a2 := (lookup_iff hv' e'.name e'.de).2 (List.mem_map.2 ⟨e', he', rfl⟩)
          have h8 : e.name = e'.name := h8
          rw [h8, a2] at a1
          exact (Option.some.inj a1).symm
        rw [this]; exact h7

theorem two_entries {kvs : List (Bytes × Value)} {p q : Bytes × Value → Bool} {a b : Bytes × Value}
    (hp : kvs.filter p = [a]) (hq : kvs.filter q = [b]) (hd : ∀ x, p x = true → q x = false)
    (ha : ∀ x ∈ kvs, p x = true ∨ q x = true) : kvs = [a, b] ∨ kvs = [b, a] := by
  have one : ∀ {l : List (Bytes × Value)} {p q : Bytes × Value → Bool} {b : Bytes × Value}, l.filter p = [] →
      l.filter q = [b] → (∀ x ∈ l, p x = true ∨ q x = true) → l = [b] := by
    intro l p q b h1 h2 h3
    rw [List.filter_eq_nil_iff] at h1
    rw [List.filter_eq_self.2 fun x hx => (h3 x hx).resolve_left (h1 x hx)] at h2
    exact h2
  cases kvs with
  | nil => cases hp
  | cons x l =>
    have hl : ∀ y ∈ l, p y = true ∨ q y = true := fun y hy => ha y (List.mem_cons_of_mem _ hy)
    by_cases hx : p x = true
    · rw [List.filter_cons, if_pos hx] at hp
      rw [List.filter_cons, if_neg (by simp [hd x hx])] at hq
      simp only [List.cons.injEq] at hp
      rw [hp.1, one hp.2 hq hl]
      exact .inl rfl
    · have hx' := (ha x List.mem_cons_self).resolve_left hx
      rw [List.filter_cons, if_neg hx] at hp
      rw [List.filter_cons, if_pos hx'] at hq
      simp only [List.cons.injEq] at hq
      rw [hq.1, one hq.2 hp fun y hy => (hl y hy).symm]
      exact .inr rfl

theorem deU64_some {v : Value} {n : Nat} : deU64 v = some n ↔ v = .num n ∧ n < 2 ^ 64 := by
  rw [reads_u64 v n]
  constructor
  · rintro ⟨⟨m, h1, h2, h3, h4⟩, _⟩
    simp only [serNat, Value.num.injEq] at h4
    subst h4
    exact ⟨h3, by omega⟩
  · rintro ⟨rfl, h⟩
    exact ⟨⟨n, by omega, by omega, rfl, rfl⟩, de_u64 h⟩

theorem deU32_some {v : Value} {n : Nat} : deU32 v = some n ↔ v = .num n ∧ n < 2 ^ 32 := by
  cases v with
  | num m =>
    simp only [deU32, Value.num.injEq]
    by_cases h : 0 ≤ m ∧ m ≤ 4294967295
    · rw [if_pos h]
      simp only [Option.some.injEq]
      omega
    · rw [if_neg h]
      constructor
      · intro h; cases h
      · rintro ⟨rfl, h'⟩; exact absurd ⟨by omega, by omega⟩ h
  | _ => simp [deU32]

theorem field_some {α : Type} {de : Value → Option α} {kvs : List (Bytes × Value)} {name : Bytes} {a : α} :
    field kvs name de = some a ↔ ∃ x, kvs.filter (fun kv => kv.1 == name) = [(name, x)] ∧ de x = some a := by
  unfold field
  constructor
  · intro h
    split at h
    · rename_i kv hf
      exact ⟨kv.2, by rw [hf, ← filter_name hf], h⟩
    · cases h
  · rintro ⟨x, h1, h2⟩
    rw [h1]
    exact h2

/-- What reading a duration amounts to. -/
theorem deDuration_some (v : Value) (a : Nat) : deDuration v = some a ↔ ∃ kvs, ∃ s n : Nat,
    deFields [b!"secs", b!"nanos"] v = some kvs ∧
    (kvs = [(b!"secs", .num s), (b!"nanos", .num n)] ∨ kvs = [(b!"nanos", .num n), (b!"secs", .num s)]) ∧
    s * 1000000000 + n < 2 ^ 64 * 1000000000 ∧ n < 2 ^ 32 ∧ a = s * 1000000000 + n := by
  unfold deDuration
  simp only [Option.bind_eq_bind, Option.bind_eq_some_iff]
  constructor
  · rintro ⟨kvs, h1, s, h2, n, h3, h4⟩
    obtain ⟨x, h5, h6⟩ := field_some.1 h2
    obtain ⟨y, h7, h8⟩ := field_some.1 h3
    obtain ⟨rfl, h9⟩ := deU64_some.1 h6
    obtain ⟨rfl, h10⟩ := deU32_some.1 h8
    by_cases hc : (kvs.all (fun kv => kv.1 == b!"secs" || kv.1 == b!"nanos") &&
      decide ((s : Int) + n / 1000000000 ≤ u64Max)) = true
    · rw [if_pos hc] at h4
      simp only [Bool.and_eq_true, List.all_eq_true, Bool.or_eq_true, decide_eq_true_eq] at hc
      obtain ⟨hc1, hc2⟩ := hc
      cases h4
      refine ⟨kvs, s, n, h1, two_entries h5 h7 (fun x hx => ?_) hc1, ?_, h10, rfl⟩
      · simp only [beq_iff_eq] at hx
        rw [hx]; decide
      · simp only [u64Max] at hc2; omega
    · rw [if_neg hc] at h4; cases h4
  · rintro ⟨kvs, s, n, h1, h2, hs, hn, rfl⟩
    have hall : kvs.all (fun kv => kv.1 == b!"secs" || kv.1 == b!"nanos") = true := by
      rcases h2 with rfl | rfl <;> rfl
    have hs' : field kvs (b!"secs") deU64 = some s := field_some.2 ⟨.num s, by rcases h2 with rfl | rfl <;> rfl,
      deU64_some.2 ⟨rfl, by omega⟩⟩
    have hn' : field kvs (b!"nanos") deU32 = some n :=
      field_some.2 ⟨.num n, by rcases h2 with rfl | rfl <;> rfl, deU32_some.2 ⟨rfl, hn⟩⟩
    refine ⟨kvs, h1, s, hs', _, hn', ?_⟩
    have e3 : decide ((s : Int) + (n : Int) / 1000000000 ≤ u64Max) = true :=
      decide_eq_true (by simp only [u64Max]; omega)
    rw [hall, e3]
    rfl

theorem reads_duration : Reads .duration deDuration serDuration := by
  intro v a
  rw [deDuration_some]
  unfold Form.duration
  constructor
  · rintro ⟨kvs, s, n, h1, h2, hs, hn, rfl⟩
    refine ⟨⟨s, n, hs, hn, ?_, ?_⟩, de_duration hs⟩
    · have e1 : (s * 1000000000 + n) / 1000000000 = s + n / 1000000000 := by omega
      have e2 : (s * 1000000000 + n) % 1000000000 = n % 1000000000 := by omega
      unfold serDuration serNat
      rw [e1, e2]
    cases v with
    | map kvs' =>
      cases h1
      rcases h2 with rfl | rfl
      · exact .inl rfl
      · exact .inr (.inl rfl)
    | seq l =>
      rcases l with _ | ⟨x, _ | ⟨y, _ | ⟨z, l⟩⟩⟩
      · simp [deFields] at h1
      · simp [deFields] at h1
      · cases h1
        rcases h2 with h2 | h2
        · simp only [List.zip_cons_cons, List.cons.injEq, Prod.mk.injEq, true_and] at h2
          obtain ⟨rfl, rfl, _⟩ := h2
          exact .inr (.inr rfl)
        · simp at h2
      · simp [deFields] at h1
    | _ => cases h1
  · rintro ⟨⟨s, n, hs, hn, e, h⟩, _⟩
    have e : a = s * 1000000000 + n := by
      simp only [serDuration, serNat, Value.map.injEq, List.cons.injEq, Prod.mk.injEq, Value.num.injEq, true_and] at e
      omega
    rcases h with rfl | rfl | rfl
    · exact ⟨_, _, _, rfl, .inl rfl, hs, hn, e⟩
    · exact ⟨_, _, _, rfl, .inr rfl, hs, hn, e⟩
    · exact ⟨_, _, _, rfl, .inl rfl, hs, hn, e⟩

theorem reads_map {α β : Type} {F : Form} {de : Value → Option α} {ser : α → Value} (h : Reads F de ser) (f : α → β)
    {part : β → Option Value} (h1 : ∀ a, part (f a) = some (ser a)) (h2 : ∀ b c, part b = some c → ∃ a, b = f a)
    (hf : ∀ a a', f a = f a' → a = a') : ReadsPart F (fun v => (de v).map f) part := by
  intro v b
  simp only [Option.map_eq_some_iff]
  constructor
  · rintro ⟨a, ha, rfl⟩
    obtain ⟨h3, h4⟩ := (h v a).1 ha
    exact ⟨_, h1 a, h3, a, h4, rfl⟩
  · rintro ⟨c, h3, h4, a, h5, rfl⟩
    rw [h1] at h3
    cases h3
    exact ⟨a, (h v a).2 ⟨h4, h5⟩, rfl⟩

/-! ### The types of this crate -/

theorem named_nil {kvs : List (Bytes × Value)} : named [] kvs [] := True.intro

theorem named_cons {f : Field} {fs : List Field} {kvs cs : List (Bytes × Value)} {c : Value} (h1 : f.among kvs c)
    (h2 : named fs kvs cs) : named (f :: fs) kvs ((f.name, c) :: cs) := ⟨rfl, h1, h2⟩

theorem of_named_cons {f : Field} {fs : List Field} {kvs cs : List (Bytes × Value)} {k : Bytes} {c : Value}
    (h : named (f :: fs) kvs ((k, c) :: cs)) : f.among kvs c ∧ named fs kvs cs := h.2


theorem reads_badgeData : Reads badgeDataForm BadgeData.de BadgeData.ser := by
  refine ReadsPart.total (reads_struct (fs := [
      must (b!"name") .text, must (b!"version") .text, may (b!"extra") .text]) (de := BadgeData.de) (ser := fun (a : BadgeData) => some [
      (b!"name", Value.str a.name),
      (b!"version", Value.str a.version),
      (b!"extra", serOption Value.str a.extra)])
    (G := fun a => deStr (Value.str a.name) = some a.name ∧
      deStr (Value.str a.version) = some a.version ∧
      deOption deStr (serOption Value.str a.extra) = some a.extra) (show List.Nodup [
      b!"name", b!"version", b!"extra"] by decide) ?_ ?_)
  · intro v a
    unfold BadgeData.de
    simp only [Option.bind_eq_bind, Option.bind_eq_some_iff, Option.pure_def, Option.some.injEq,
      field_reads reads_text, optField_reads reads_text noNull_text]
    constructor
    · rintro ⟨kvs, h0, x1, ⟨a1, g1⟩, x2, ⟨a2, g2⟩, x3, ⟨a3, g3⟩, rfl⟩
      exact ⟨kvs, _, h0, rfl, (named_cons a1 (named_cons a2 (named_cons a3 named_nil))), g1, g2, g3⟩
    · rintro ⟨kvs, cs, h0, h1, h2, h3⟩
      cases h1
      obtain ⟨g1, g2, g3⟩ := h3
      obtain ⟨a1, h2⟩ := of_named_cons h2
      obtain ⟨a2, h2⟩ := of_named_cons h2
      obtain ⟨a3, h2⟩ := of_named_cons h2
      exact ⟨kvs, h0, _, ⟨a1, g1⟩, _, ⟨a2, g2⟩, _, ⟨a3, g3⟩, rfl⟩
  · intro a cs h1 h3
    cases h1
    obtain ⟨g1, g2, g3⟩ := h3
    exact named_cons (among_self rfl (reads_text _ _ |>.1 g1).1)
      (named_cons (among_self rfl (reads_text _ _ |>.1 g2).1)
      (named_cons (among_self rfl (reads_option reads_text noNull_text _ _ |>.1 g3).1)
      named_nil))

theorem reads_subscriber : Reads subscriberForm Subscriber.de Subscriber.ser := by
  refine ReadsPart.total (reads_struct (fs := [must (b!"version") .text, must (b!"months") .text]) (de := Subscriber.de)
    (ser := fun (a : Subscriber) => some [
      (b!"version", Value.str a.version),
      (b!"months", Value.str a.months)])
    (G := fun a => deStr (Value.str a.version) = some a.version ∧ deStr (Value.str a.months) = some a.months ∧
      parseU64 a.months = some a.monthsN) (by decide) ?_ ?_)
  · intro v a
    unfold Subscriber.de
    simp only [Option.bind_eq_bind, Option.bind_eq_some_iff, Option.pure_def, Option.some.injEq,
      field_reads reads_text]
    constructor
    · rintro ⟨kvs, h0, x1, ⟨a1, g1⟩, x2, ⟨a2, g2⟩, n, h3, rfl⟩
      exact ⟨kvs, _, h0, rfl, (named_cons a1 (named_cons a2 named_nil)), g1, g2, h3⟩
    · rintro ⟨kvs, cs, h0, h1, h2, h3⟩
      cases h1
      obtain ⟨g1, g2, g3⟩ := h3
      obtain ⟨a1, h2⟩ := of_named_cons h2
      obtain ⟨a2, h2⟩ := of_named_cons h2
      exact ⟨kvs, h0, _, ⟨a1, g1⟩, _, ⟨a2, g2⟩, _, g3, rfl⟩
  · intro a cs h1 h3
    cases h1
    obtain ⟨g1, g2, g3⟩ := h3
    exact named_cons (among_self rfl (reads_text _ _ |>.1 g1).1)
      (named_cons (among_self rfl (reads_text _ _ |>.1 g2).1)
      named_nil)

def badgePartSubscriber : Badge → Option Value
  | .subscriber v => some v.ser
  | _ => none

def badgePartOther : Badge → Option Value
  | .other v => some v.ser
  | _ => none

theorem reads_badge : Reads badgeForm Badge.de Badge.ser := by
  refine reads_enum (units := [(b!"staff", .staff), (b!"turbo", .turbo), (b!"broadcaster", .broadcaster),
    (b!"moderator", .moderator)]) (vs := [
    ⟨b!"subscriber", subscriberForm, fun v => (Subscriber.de v).map .subscriber, badgePartSubscriber⟩,
    ⟨b!"other", badgeDataForm, fun v => (BadgeData.de v).map .other, badgePartOther⟩])
    (show List.Nodup [b!"staff", b!"turbo", b!"broadcaster", b!"moderator"] by decide)
    (show List.Nodup (α := Bytes) [b!"subscriber", b!"other"] by decide)
    (show ∀ u ∈ [b!"staff", b!"turbo", b!"broadcaster", b!"moderator"], u ∉ ([b!"subscriber", b!"other"] : List Bytes) by decide) ?_ ?_ ?_
  · intro u a; cases a <;> simp [Badge.ser, eq_comm]
  · simp only [List.forall_mem_cons, List.not_mem_nil, false_imp_iff, implies_true, and_true]
    refine ⟨?_, ?_⟩
    all_goals intro a c; cases a <;> simp [Badge.ser, badgePartSubscriber, badgePartOther]
  · simp only [List.forall_mem_cons, List.not_mem_nil, false_imp_iff, implies_true, and_true]
    exact ⟨reads_map reads_subscriber Badge.subscriber (fun _ => rfl)
        (fun b c h => by cases b <;> first | exact ⟨_, rfl⟩ | cases h) (fun a a' h => by cases h; rfl),
      reads_map reads_badgeData Badge.other (fun _ => rfl)
        (fun b c h => by cases b <;> first | exact ⟨_, rfl⟩ | cases h) (fun a a' h => by cases h; rfl)⟩

theorem reads_user : Reads userForm User.de User.ser := by
  refine ReadsPart.total (reads_struct (fs := [
      must (b!"id") .text, must (b!"login") .text, must (b!"name") .text]) (de := User.de) (ser := fun (a : User) => some [
      (b!"id", Value.str a.id),
      (b!"login", Value.str a.login),
      (b!"name", Value.str a.name)])
    (G := fun a => deStr (Value.str a.id) = some a.id ∧
      deStr (Value.str a.login) = some a.login ∧
      deStr (Value.str a.name) = some a.name) (show List.Nodup [
      b!"id", b!"login", b!"name"] by decide) ?_ ?_)
  · intro v a
    unfold User.de
    simp only [Option.bind_eq_bind, Option.bind_eq_some_iff, Option.pure_def, Option.some.injEq,
      field_reads reads_text]
    constructor
    · rintro ⟨kvs, h0, x1, ⟨a1, g1⟩, x2, ⟨a2, g2⟩, x3, ⟨a3, g3⟩, rfl⟩
      exact ⟨kvs, _, h0, rfl, (named_cons a1 (named_cons a2 (named_cons a3 named_nil))), g1, g2, g3⟩
    · rintro ⟨kvs, cs, h0, h1, h2, h3⟩
      cases h1
      obtain ⟨g1, g2, g3⟩ := h3
      obtain ⟨a1, h2⟩ := of_named_cons h2
      obtain ⟨a2, h2⟩ := of_named_cons h2
      obtain ⟨a3, h2⟩ := of_named_cons h2
      exact ⟨kvs, h0, _, ⟨a1, g1⟩, _, ⟨a2, g2⟩, _, ⟨a3, g3⟩, rfl⟩
  · intro a cs h1 h3
    cases h1
    obtain ⟨g1, g2, g3⟩ := h3
    exact named_cons (among_self rfl (reads_text _ _ |>.1 g1).1)
      (named_cons (among_self rfl (reads_text _ _ |>.1 g2).1)
      (named_cons (among_self rfl (reads_text _ _ |>.1 g3).1)
      named_nil))

def actionPartBan : Action → Option (List (Bytes × Value))
  | .ban y1 y2 => some [
      (b!"user", Value.str y1),
      (b!"id", Value.str y2)]
  | _ => none

def actionGoodBan : Action → Prop
  | .ban y1 y2 =>
      deStr (Value.str y1) = some y1 ∧
      deStr (Value.str y2) = some y2
  | _ => False

theorem reads_actionBan : ReadsPart (.object [
      must (b!"user") .text, must (b!"id") .text]) Action.deBan (fun a => (actionPartBan a).map .map) := by
  refine reads_struct (G := actionGoodBan) (show List.Nodup [
      b!"user", b!"id"] by decide) ?_ ?_
  · intro v a
    unfold Action.deBan
    simp only [Option.bind_eq_bind, Option.bind_eq_some_iff, Option.pure_def, Option.some.injEq,
      field_reads reads_text]
    constructor
    · rintro ⟨kvs, h0, x1, ⟨a1, g1⟩, x2, ⟨a2, g2⟩, rfl⟩
      exact ⟨kvs, _, h0, rfl, (named_cons a1 (named_cons a2 named_nil)), g1, g2⟩
    · rintro ⟨kvs, cs, h0, h1, h2, h3⟩
      cases a <;> cases h1
      obtain ⟨g1, g2⟩ := h3
      obtain ⟨a1, h2⟩ := of_named_cons h2
      obtain ⟨a2, h2⟩ := of_named_cons h2
      exact ⟨kvs, h0, _, ⟨a1, g1⟩, _, ⟨a2, g2⟩, rfl⟩
  · intro a cs h1 h3
    cases a <;> cases h1
    obtain ⟨g1, g2⟩ := h3
    exact named_cons (among_self rfl (reads_text _ _ |>.1 g1).1)
      (named_cons (among_self rfl (reads_text _ _ |>.1 g2).1)
      named_nil)

def actionPartTimeOut : Action → Option (List (Bytes × Value))
  | .timeOut y1 y2 y3 => some [
      (b!"user", Value.str y1),
      (b!"id", Value.str y2),
      (b!"duration", serDuration y3)]
  | _ => none

def actionGoodTimeOut : Action → Prop
  | .timeOut y1 y2 y3 =>
      deStr (Value.str y1) = some y1 ∧
      deStr (Value.str y2) = some y2 ∧
      deDuration (serDuration y3) = some y3
  | _ => False

theorem reads_actionTimeOut : ReadsPart (.object [
      must (b!"user") .text, must (b!"id") .text, must (b!"duration") .duration]) Action.deTimeOut (fun a => (actionPartTimeOut a).map .map) := by
  refine reads_struct (G := actionGoodTimeOut) (show List.Nodup [
      b!"user", b!"id", b!"duration"] by decide) ?_ ?_
  · intro v a
    unfold Action.deTimeOut
    simp only [Option.bind_eq_bind, Option.bind_eq_some_iff, Option.pure_def, Option.some.injEq,
      field_reads reads_text, field_reads reads_duration]
    constructor
    · rintro ⟨kvs, h0, x1, ⟨a1, g1⟩, x2, ⟨a2, g2⟩, x3, ⟨a3, g3⟩, rfl⟩
      exact ⟨kvs, _, h0, rfl, (named_cons a1 (named_cons a2 (named_cons a3 named_nil))), g1, g2, g3⟩
    · rintro ⟨kvs, cs, h0, h1, h2, h3⟩
      cases a <;> cases h1
      obtain ⟨g1, g2, g3⟩ := h3
      obtain ⟨a1, h2⟩ := of_named_cons h2
      obtain ⟨a2, h2⟩ := of_named_cons h2
      obtain ⟨a3, h2⟩ := of_named_cons h2
      exact ⟨kvs, h0, _, ⟨a1, g1⟩, _, ⟨a2, g2⟩, _, ⟨a3, g3⟩, rfl⟩
  · intro a cs h1 h3
    cases a <;> cases h1
    obtain ⟨g1, g2, g3⟩ := h3
    exact named_cons (among_self rfl (reads_text _ _ |>.1 g1).1)
      (named_cons (among_self rfl (reads_text _ _ |>.1 g2).1)
      (named_cons (among_self rfl (reads_duration _ _ |>.1 g3).1)
      named_nil))

theorem reads_action : Reads actionForm Action.de Action.ser := by
  refine reads_enum (units := [(b!"clear", .clear)]) (vs := [
    ⟨b!"ban", .object [
      must (b!"user") .text, must (b!"id") .text], Action.deBan, fun a => (actionPartBan a).map .map⟩,
    ⟨b!"timeout", .object [
      must (b!"user") .text, must (b!"id") .text, must (b!"duration") .duration], Action.deTimeOut, fun a => (actionPartTimeOut a).map .map⟩])
    (show List.Nodup [b!"clear"] by decide)
    (show List.Nodup (α := Bytes) [b!"ban", b!"timeout"] by decide)
    (show ∀ u ∈ [b!"clear"], u ∉ ([b!"ban", b!"timeout"] : List Bytes) by decide) ?_ ?_ ?_
  · intro u a; cases a <;> simp [Action.ser, eq_comm]
  · simp only [List.forall_mem_cons, List.not_mem_nil, false_imp_iff, implies_true, and_true]
    refine ⟨?_, ?_⟩
    all_goals intro a c; cases a <;> simp [Action.ser, actionPartBan, actionPartTimeOut]
  · simp only [List.forall_mem_cons, List.not_mem_nil, false_imp_iff, implies_true, and_true]
    exact ⟨reads_actionBan, reads_actionTimeOut⟩

theorem reads_clearChat {tc : TimeCodec} (hc : TimeCodec.Stable tc) : Reads (clearChatForm tc) (ClearChat.de tc) (ClearChat.ser tc) := by
  refine ReadsPart.total (reads_struct (fs := [
      must (b!"channel") .text, must (b!"channel_id") .text, must (b!"action") actionForm,
      must (b!"timestamp") (.time tc)]) (de := (ClearChat.de tc)) (ser := fun (a : ClearChat) => some [
      (b!"channel", Value.str a.channel),
      (b!"channel_id", Value.str a.channelId),
      (b!"action", Action.ser a.action),
      (b!"timestamp", tc.ser a.timestamp)])
    (G := fun a => deStr (Value.str a.channel) = some a.channel ∧
      deStr (Value.str a.channelId) = some a.channelId ∧
      Action.de (Action.ser a.action) = some a.action ∧
      tc.de (tc.ser a.timestamp) = some a.timestamp) (show List.Nodup [
      b!"channel", b!"channel_id", b!"action", b!"timestamp"] by decide) ?_ ?_)
  · intro v a
    unfold ClearChat.de
    simp only [Option.bind_eq_bind, Option.bind_eq_some_iff, Option.pure_def, Option.some.injEq,
      field_reads reads_text, field_reads reads_action, field_reads (reads_time hc)]
    constructor
    · rintro ⟨kvs, h0, x1, ⟨a1, g1⟩, x2, ⟨a2, g2⟩, x3, ⟨a3, g3⟩, x4, ⟨a4, g4⟩, rfl⟩
      exact ⟨kvs, _, h0, rfl, (named_cons a1 (named_cons a2 (named_cons a3 (named_cons a4 named_nil)))), g1, g2, g3, g4⟩
    · rintro ⟨kvs, cs, h0, h1, h2, h3⟩
      cases h1
      obtain ⟨g1, g2, g3, g4⟩ := h3
      obtain ⟨a1, h2⟩ := of_named_cons h2
      obtain ⟨a2, h2⟩ := of_named_cons h2
      obtain ⟨a3, h2⟩ := of_named_cons h2
      obtain ⟨a4, h2⟩ := of_named_cons h2
      exact ⟨kvs, h0, _, ⟨a1, g1⟩, _, ⟨a2, g2⟩, _, ⟨a3, g3⟩, _, ⟨a4, g4⟩, rfl⟩
  · intro a cs h1 h3
    cases h1
    obtain ⟨g1, g2, g3, g4⟩ := h3
    exact named_cons (among_self rfl (reads_text _ _ |>.1 g1).1)
      (named_cons (among_self rfl (reads_text _ _ |>.1 g2).1)
      (named_cons (among_self rfl (reads_action _ _ |>.1 g3).1)
      (named_cons (among_self rfl (reads_time hc _ _ |>.1 g4).1)
      named_nil)))

theorem reads_clearMsg {tc : TimeCodec} (hc : TimeCodec.Stable tc) : Reads (clearMsgForm tc) (ClearMsg.de tc) (ClearMsg.ser tc) := by
  refine ReadsPart.total (reads_struct (fs := [
      must (b!"channel") .text, must (b!"channel_id") .text, must (b!"sender") .text,
      must (b!"target_message_id") .text, must (b!"text") .text, must (b!"is_action") .flag,
      must (b!"timestamp") (.time tc)]) (de := (ClearMsg.de tc)) (ser := fun (a : ClearMsg) => some [
      (b!"channel", Value.str a.channel),
      (b!"channel_id", Value.str a.channelId),
      (b!"sender", Value.str a.sender),
      (b!"target_message_id", Value.str a.targetMessageId),
      (b!"text", Value.str a.text),
      (b!"is_action", Value.bool a.isAction),
      (b!"timestamp", tc.ser a.timestamp)])
    (G := fun a => deStr (Value.str a.channel) = some a.channel ∧
      deStr (Value.str a.channelId) = some a.channelId ∧
      deStr (Value.str a.sender) = some a.sender ∧
      deStr (Value.str a.targetMessageId) = some a.targetMessageId ∧
      deStr (Value.str a.text) = some a.text ∧
      deBool (Value.bool a.isAction) = some a.isAction ∧
      tc.de (tc.ser a.timestamp) = some a.timestamp) (show List.Nodup [
      b!"channel", b!"channel_id", b!"sender", b!"target_message_id", b!"text", b!"is_action", b!"timestamp"] by decide) ?_ ?_)
  · intro v a
    unfold ClearMsg.de
    simp only [Option.bind_eq_bind, Option.bind_eq_some_iff, Option.pure_def, Option.some.injEq,
      field_reads reads_text, field_reads reads_flag, field_reads (reads_time hc)]
    constructor
    · rintro ⟨kvs, h0, x1, ⟨a1, g1⟩, x2, ⟨a2, g2⟩, x3, ⟨a3, g3⟩, x4, ⟨a4, g4⟩, x5, ⟨a5, g5⟩, x6, ⟨a6, g6⟩, x7, ⟨a7, g7⟩, rfl⟩
      exact ⟨kvs, _, h0, rfl, (named_cons a1 (named_cons a2 (named_cons a3 (named_cons a4 (named_cons a5 (named_cons a6 (named_cons a7 named_nil))))))), g1, g2, g3, g4, g5, g6, g7⟩
    · rintro ⟨kvs, cs, h0, h1, h2, h3⟩
      cases h1
      obtain ⟨g1, g2, g3, g4, g5, g6, g7⟩ := h3
      obtain ⟨a1, h2⟩ := of_named_cons h2
      obtain ⟨a2, h2⟩ := of_named_cons h2
      obtain ⟨a3, h2⟩ := of_named_cons h2
      obtain ⟨a4, h2⟩ := of_named_cons h2
      obtain ⟨a5, h2⟩ := of_named_cons h2
      obtain ⟨a6, h2⟩ := of_named_cons h2
      obtain ⟨a7, h2⟩ := of_named_cons h2
      exact ⟨kvs, h0, _, ⟨a1, g1⟩, _, ⟨a2, g2⟩, _, ⟨a3, g3⟩, _, ⟨a4, g4⟩, _, ⟨a5, g5⟩, _, ⟨a6, g6⟩, _, ⟨a7, g7⟩, rfl⟩
  · intro a cs h1 h3
    cases h1
    obtain ⟨g1, g2, g3, g4, g5, g6, g7⟩ := h3
    exact named_cons (among_self rfl (reads_text _ _ |>.1 g1).1)
      (named_cons (among_self rfl (reads_text _ _ |>.1 g2).1)
      (named_cons (among_self rfl (reads_text _ _ |>.1 g3).1)
      (named_cons (among_self rfl (reads_text _ _ |>.1 g4).1)
      (named_cons (among_self rfl (reads_text _ _ |>.1 g5).1)
      (named_cons (among_self rfl (reads_flag _ _ |>.1 g6).1)
      (named_cons (among_self rfl (reads_time hc _ _ |>.1 g7).1)
      named_nil))))))

theorem reads_globalUserState : Reads globalUserStateForm GlobalUserState.de GlobalUserState.ser := by
  refine ReadsPart.total (reads_struct (fs := [
      must (b!"id") .text, must (b!"name") .text, must (b!"badges") (.list badgeForm),
      must (b!"emote_sets") (.list .text), may (b!"color") .text]) (de := GlobalUserState.de) (ser := fun (a : GlobalUserState) => some [
      (b!"id", Value.str a.id),
      (b!"name", Value.str a.name),
      (b!"badges", serSeq Badge.ser a.badges),
      (b!"emote_sets", serSeq Value.str a.emoteSets),
      (b!"color", serOption Value.str a.color)])
    (G := fun a => deStr (Value.str a.id) = some a.id ∧
      deStr (Value.str a.name) = some a.name ∧
      deSeq Badge.de (serSeq Badge.ser a.badges) = some a.badges ∧
      deSeq deStr (serSeq Value.str a.emoteSets) = some a.emoteSets ∧
      deOption deStr (serOption Value.str a.color) = some a.color) (show List.Nodup [
      b!"id", b!"name", b!"badges", b!"emote_sets", b!"color"] by decide) ?_ ?_)
  · intro v a
    unfold GlobalUserState.de
    simp only [Option.bind_eq_bind, Option.bind_eq_some_iff, Option.pure_def, Option.some.injEq,
      field_reads reads_text, field_reads (reads_list reads_badge), field_reads (reads_list reads_text), optField_reads reads_text noNull_text]
    constructor
    · rintro ⟨kvs, h0, x1, ⟨a1, g1⟩, x2, ⟨a2, g2⟩, x3, ⟨a3, g3⟩, x4, ⟨a4, g4⟩, x5, ⟨a5, g5⟩, rfl⟩
      exact ⟨kvs, _, h0, rfl, (named_cons a1 (named_cons a2 (named_cons a3 (named_cons a4 (named_cons a5 named_nil))))), g1, g2, g3, g4, g5⟩
    · rintro ⟨kvs, cs, h0, h1, h2, h3⟩
      cases h1
      obtain ⟨g1, g2, g3, g4, g5⟩ := h3
      obtain ⟨a1, h2⟩ := of_named_cons h2
      obtain ⟨a2, h2⟩ := of_named_cons h2
      obtain ⟨a3, h2⟩ := of_named_cons h2
      obtain ⟨a4, h2⟩ := of_named_cons h2
      obtain ⟨a5, h2⟩ := of_named_cons h2
      exact ⟨kvs, h0, _, ⟨a1, g1⟩, _, ⟨a2, g2⟩, _, ⟨a3, g3⟩, _, ⟨a4, g4⟩, _, ⟨a5, g5⟩, rfl⟩
  · intro a cs h1 h3
    cases h1
    obtain ⟨g1, g2, g3, g4, g5⟩ := h3
    exact named_cons (among_self rfl (reads_text _ _ |>.1 g1).1)
      (named_cons (among_self rfl (reads_text _ _ |>.1 g2).1)
      (named_cons (among_self rfl (reads_list reads_badge _ _ |>.1 g3).1)
      (named_cons (among_self rfl (reads_list reads_text _ _ |>.1 g4).1)
      (named_cons (among_self rfl (reads_option reads_text noNull_text _ _ |>.1 g5).1)
      named_nil))))

theorem reads_join : Reads joinForm Join.de Join.ser := by
  refine ReadsPart.total (reads_struct (fs := [
      must (b!"channel") .text, must (b!"user") .text]) (de := Join.de) (ser := fun (a : Join) => some [
      (b!"channel", Value.str a.channel),
      (b!"user", Value.str a.user)])
    (G := fun a => deStr (Value.str a.channel) = some a.channel ∧
      deStr (Value.str a.user) = some a.user) (show List.Nodup [
      b!"channel", b!"user"] by decide) ?_ ?_)
  · intro v a
    unfold Join.de
    simp only [Option.bind_eq_bind, Option.bind_eq_some_iff, Option.pure_def, Option.some.injEq,
      field_reads reads_text]
    constructor
    · rintro ⟨kvs, h0, x1, ⟨a1, g1⟩, x2, ⟨a2, g2⟩, rfl⟩
      exact ⟨kvs, _, h0, rfl, (named_cons a1 (named_cons a2 named_nil)), g1, g2⟩
    · rintro ⟨kvs, cs, h0, h1, h2, h3⟩
      cases h1
      obtain ⟨g1, g2⟩ := h3
      obtain ⟨a1, h2⟩ := of_named_cons h2
      obtain ⟨a2, h2⟩ := of_named_cons h2
      exact ⟨kvs, h0, _, ⟨a1, g1⟩, _, ⟨a2, g2⟩, rfl⟩
  · intro a cs h1 h3
    cases h1
    obtain ⟨g1, g2⟩ := h3
    exact named_cons (among_self rfl (reads_text _ _ |>.1 g1).1)
      (named_cons (among_self rfl (reads_text _ _ |>.1 g2).1)
      named_nil)

theorem reads_part : Reads partForm Part.de Part.ser := by
  refine ReadsPart.total (reads_struct (fs := [
      must (b!"channel") .text, must (b!"user") .text]) (de := Part.de) (ser := fun (a : Part) => some [
      (b!"channel", Value.str a.channel),
      (b!"user", Value.str a.user)])
    (G := fun a => deStr (Value.str a.channel) = some a.channel ∧
      deStr (Value.str a.user) = some a.user) (show List.Nodup [
      b!"channel", b!"user"] by decide) ?_ ?_)
  · intro v a
    unfold Part.de
    simp only [Option.bind_eq_bind, Option.bind_eq_some_iff, Option.pure_def, Option.some.injEq,
      field_reads reads_text]
    constructor
    · rintro ⟨kvs, h0, x1, ⟨a1, g1⟩, x2, ⟨a2, g2⟩, rfl⟩
      exact ⟨kvs, _, h0, rfl, (named_cons a1 (named_cons a2 named_nil)), g1, g2⟩
    · rintro ⟨kvs, cs, h0, h1, h2, h3⟩
      cases h1
      obtain ⟨g1, g2⟩ := h3
      obtain ⟨a1, h2⟩ := of_named_cons h2
      obtain ⟨a2, h2⟩ := of_named_cons h2
      exact ⟨kvs, h0, _, ⟨a1, g1⟩, _, ⟨a2, g2⟩, rfl⟩
  · intro a cs h1 h3
    cases h1
    obtain ⟨g1, g2⟩ := h3
    exact named_cons (among_self rfl (reads_text _ _ |>.1 g1).1)
      (named_cons (among_self rfl (reads_text _ _ |>.1 g2).1)
      named_nil)

theorem reads_notice : Reads noticeForm Notice.de Notice.ser := by
  refine ReadsPart.total (reads_struct (fs := [
      may (b!"channel") .text, must (b!"text") .text, may (b!"id") .text]) (de := Notice.de) (ser := fun (a : Notice) => some [
      (b!"channel", serOption Value.str a.channel),
      (b!"text", Value.str a.text),
      (b!"id", serOption Value.str a.id)])
    (G := fun a => deOption deStr (serOption Value.str a.channel) = some a.channel ∧
      deStr (Value.str a.text) = some a.text ∧
      deOption deStr (serOption Value.str a.id) = some a.id) (show List.Nodup [
      b!"channel", b!"text", b!"id"] by decide) ?_ ?_)
  · intro v a
    unfold Notice.de
    simp only [Option.bind_eq_bind, Option.bind_eq_some_iff, Option.pure_def, Option.some.injEq,
      optField_reads reads_text noNull_text, field_reads reads_text]
    constructor
    · rintro ⟨kvs, h0, x1, ⟨a1, g1⟩, x2, ⟨a2, g2⟩, x3, ⟨a3, g3⟩, rfl⟩
      exact ⟨kvs, _, h0, rfl, (named_cons a1 (named_cons a2 (named_cons a3 named_nil))), g1, g2, g3⟩
    · rintro ⟨kvs, cs, h0, h1, h2, h3⟩
      cases h1
      obtain ⟨g1, g2, g3⟩ := h3
      obtain ⟨a1, h2⟩ := of_named_cons h2
      obtain ⟨a2, h2⟩ := of_named_cons h2
      obtain ⟨a3, h2⟩ := of_named_cons h2
      exact ⟨kvs, h0, _, ⟨a1, g1⟩, _, ⟨a2, g2⟩, _, ⟨a3, g3⟩, rfl⟩
  · intro a cs h1 h3
    cases h1
    obtain ⟨g1, g2, g3⟩ := h3
    exact named_cons (among_self rfl (reads_option reads_text noNull_text _ _ |>.1 g1).1)
      (named_cons (among_self rfl (reads_text _ _ |>.1 g2).1)
      (named_cons (among_self rfl (reads_option reads_text noNull_text _ _ |>.1 g3).1)
      named_nil))

theorem reads_ping : Reads pingForm Ping.de Ping.ser := by
  refine ReadsPart.total (reads_struct (fs := [
      may (b!"nonce") .text]) (de := Ping.de) (ser := fun (a : Ping) => some [
      (b!"nonce", serOption Value.str a.nonce)])
    (G := fun a => deOption deStr (serOption Value.str a.nonce) = some a.nonce) (show List.Nodup [
      b!"nonce"] by decide) ?_ ?_)
  · intro v a
    unfold Ping.de
    simp only [Option.bind_eq_bind, Option.bind_eq_some_iff, Option.pure_def, Option.some.injEq,
      optField_reads reads_text noNull_text]
    constructor
    · rintro ⟨kvs, h0, x1, ⟨a1, g1⟩, rfl⟩
      exact ⟨kvs, _, h0, rfl, (named_cons a1 named_nil), g1⟩
    · rintro ⟨kvs, cs, h0, h1, h2, h3⟩
      cases h1
      have g1 := h3
      obtain ⟨a1, h2⟩ := of_named_cons h2
      exact ⟨kvs, h0, _, ⟨a1, g1⟩, rfl⟩
  · intro a cs h1 h3
    cases h1
    have g1 := h3
    exact named_cons (among_self rfl (reads_option reads_text noNull_text _ _ |>.1 g1).1)
      named_nil

theorem reads_pong : Reads pongForm Pong.de Pong.ser := by
  refine ReadsPart.total (reads_struct (fs := [
      may (b!"nonce") .text]) (de := Pong.de) (ser := fun (a : Pong) => some [
      (b!"nonce", serOption Value.str a.nonce)])
    (G := fun a => deOption deStr (serOption Value.str a.nonce) = some a.nonce) (show List.Nodup [
      b!"nonce"] by decide) ?_ ?_)
  · intro v a
    unfold Pong.de
    simp only [Option.bind_eq_bind, Option.bind_eq_some_iff, Option.pure_def, Option.some.injEq,
      optField_reads reads_text noNull_text]
    constructor
    · rintro ⟨kvs, h0, x1, ⟨a1, g1⟩, rfl⟩
      exact ⟨kvs, _, h0, rfl, (named_cons a1 named_nil), g1⟩
    · rintro ⟨kvs, cs, h0, h1, h2, h3⟩
      cases h1
      have g1 := h3
      obtain ⟨a1, h2⟩ := of_named_cons h2
      exact ⟨kvs, h0, _, ⟨a1, g1⟩, rfl⟩
  · intro a cs h1 h3
    cases h1
    have g1 := h3
    exact named_cons (among_self rfl (reads_option reads_text noNull_text _ _ |>.1 g1).1)
      named_nil

theorem reads_reply : Reads replyForm Reply.de Reply.ser := by
  refine ReadsPart.total (reads_struct (fs := [
      must (b!"thread_parent_message_id") .text, must (b!"thread_parent_user_login") .text,
      must (b!"message_id") .text, must (b!"sender") userForm, must (b!"text") .text]) (de := Reply.de) (ser := fun (a : Reply) => some [
      (b!"thread_parent_message_id", Value.str a.threadParentMessageId),
      (b!"thread_parent_user_login", Value.str a.threadParentUserLogin),
      (b!"message_id", Value.str a.messageId),
      (b!"sender", User.ser a.sender),
      (b!"text", Value.str a.text)])
    (G := fun a => deStr (Value.str a.threadParentMessageId) = some a.threadParentMessageId ∧
      deStr (Value.str a.threadParentUserLogin) = some a.threadParentUserLogin ∧
      deStr (Value.str a.messageId) = some a.messageId ∧
      User.de (User.ser a.sender) = some a.sender ∧
      deStr (Value.str a.text) = some a.text) (show List.Nodup [
      b!"thread_parent_message_id", b!"thread_parent_user_login", b!"message_id", b!"sender", b!"text"] by decide) ?_ ?_)
  · intro v a
    unfold Reply.de
    simp only [Option.bind_eq_bind, Option.bind_eq_some_iff, Option.pure_def, Option.some.injEq,
      field_reads reads_text, field_reads reads_user]
    constructor
    · rintro ⟨kvs, h0, x1, ⟨a1, g1⟩, x2, ⟨a2, g2⟩, x3, ⟨a3, g3⟩, x4, ⟨a4, g4⟩, x5, ⟨a5, g5⟩, rfl⟩
      exact ⟨kvs, _, h0, rfl, (named_cons a1 (named_cons a2 (named_cons a3 (named_cons a4 (named_cons a5 named_nil))))), g1, g2, g3, g4, g5⟩
    · rintro ⟨kvs, cs, h0, h1, h2, h3⟩
      cases h1
      obtain ⟨g1, g2, g3, g4, g5⟩ := h3
      obtain ⟨a1, h2⟩ := of_named_cons h2
      obtain ⟨a2, h2⟩ := of_named_cons h2
      obtain ⟨a3, h2⟩ := of_named_cons h2
      obtain ⟨a4, h2⟩ := of_named_cons h2
      obtain ⟨a5, h2⟩ := of_named_cons h2
      exact ⟨kvs, h0, _, ⟨a1, g1⟩, _, ⟨a2, g2⟩, _, ⟨a3, g3⟩, _, ⟨a4, g4⟩, _, ⟨a5, g5⟩, rfl⟩
  · intro a cs h1 h3
    cases h1
    obtain ⟨g1, g2, g3, g4, g5⟩ := h3
    exact named_cons (among_self rfl (reads_text _ _ |>.1 g1).1)
      (named_cons (among_self rfl (reads_text _ _ |>.1 g2).1)
      (named_cons (among_self rfl (reads_text _ _ |>.1 g3).1)
      (named_cons (among_self rfl (reads_user _ _ |>.1 g4).1)
      (named_cons (among_self rfl (reads_text _ _ |>.1 g5).1)
      named_nil))))

theorem reads_pinnedChatLevel : Reads pinnedChatLevelForm PinnedChatLevel.de PinnedChatLevel.ser := by
  refine reads_enum (units := [
    (b!"ONE", PinnedChatLevel.one), (b!"TWO", PinnedChatLevel.two), (b!"THREE", PinnedChatLevel.three),
    (b!"FOUR", PinnedChatLevel.four), (b!"FIVE", PinnedChatLevel.five), (b!"SIX", PinnedChatLevel.six),
    (b!"SEVEN", PinnedChatLevel.seven), (b!"EIGHT", PinnedChatLevel.eight), (b!"NINE", PinnedChatLevel.nine),
    (b!"TEN", PinnedChatLevel.ten)]) (vs := [])
    (show List.Nodup [b!"ONE", b!"TWO", b!"THREE", b!"FOUR", b!"FIVE", b!"SIX", b!"SEVEN", b!"EIGHT", b!"NINE", b!"TEN"] by decide)
    (show List.Nodup (α := Bytes) [] by decide)
    (show ∀ u ∈ [b!"ONE", b!"TWO", b!"THREE", b!"FOUR", b!"FIVE", b!"SIX", b!"SEVEN", b!"EIGHT", b!"NINE", b!"TEN"], u ∉ ([] : List Bytes) by decide) ?_ ?_ ?_
  · intro u a; cases a <;> simp [PinnedChatLevel.ser, eq_comm]
  · exact fun _ h => nomatch h
  · exact fun _ h => nomatch h

theorem reads_pinnedChat : Reads pinnedChatForm PinnedChat.de PinnedChat.ser := by
  refine ReadsPart.total (reads_struct (fs := [
      must (b!"paid_amount") .i64, must (b!"paid_currency") .text, must (b!"paid_exponent") .i64,
      must (b!"paid_level") pinnedChatLevelForm, must (b!"is_system_message") .flag]) (de := PinnedChat.de) (ser := fun (a : PinnedChat) => some [
      (b!"paid_amount", Value.num a.paidAmount),
      (b!"paid_currency", Value.str a.paidCurrency),
      (b!"paid_exponent", Value.num a.paidExponent),
      (b!"paid_level", PinnedChatLevel.ser a.paidLevel),
      (b!"is_system_message", Value.bool a.isSystemMessage)])
    (G := fun a => deI64 (Value.num a.paidAmount) = some a.paidAmount ∧
      deStr (Value.str a.paidCurrency) = some a.paidCurrency ∧
      deI64 (Value.num a.paidExponent) = some a.paidExponent ∧
      PinnedChatLevel.de (PinnedChatLevel.ser a.paidLevel) = some a.paidLevel ∧
      deBool (Value.bool a.isSystemMessage) = some a.isSystemMessage) (show List.Nodup [
      b!"paid_amount", b!"paid_currency", b!"paid_exponent", b!"paid_level", b!"is_system_message"] by decide) ?_ ?_)
  · intro v a
    unfold PinnedChat.de
    simp only [Option.bind_eq_bind, Option.bind_eq_some_iff, Option.pure_def, Option.some.injEq,
      field_reads reads_i64, field_reads reads_text, field_reads reads_pinnedChatLevel, field_reads reads_flag]
    constructor
    · rintro ⟨kvs, h0, x1, ⟨a1, g1⟩, x2, ⟨a2, g2⟩, x3, ⟨a3, g3⟩, x4, ⟨a4, g4⟩, x5, ⟨a5, g5⟩, rfl⟩
      exact ⟨kvs, _, h0, rfl, (named_cons a1 (named_cons a2 (named_cons a3 (named_cons a4 (named_cons a5 named_nil))))), g1, g2, g3, g4, g5⟩
    · rintro ⟨kvs, cs, h0, h1, h2, h3⟩
      cases h1
      obtain ⟨g1, g2, g3, g4, g5⟩ := h3
      obtain ⟨a1, h2⟩ := of_named_cons h2
      obtain ⟨a2, h2⟩ := of_named_cons h2
      obtain ⟨a3, h2⟩ := of_named_cons h2
      obtain ⟨a4, h2⟩ := of_named_cons h2
      obtain ⟨a5, h2⟩ := of_named_cons h2
      exact ⟨kvs, h0, _, ⟨a1, g1⟩, _, ⟨a2, g2⟩, _, ⟨a3, g3⟩, _, ⟨a4, g4⟩, _, ⟨a5, g5⟩, rfl⟩
  · intro a cs h1 h3
    cases h1
    obtain ⟨g1, g2, g3, g4, g5⟩ := h3
    exact named_cons (among_self rfl (reads_i64 _ _ |>.1 g1).1)
      (named_cons (among_self rfl (reads_text _ _ |>.1 g2).1)
      (named_cons (among_self rfl (reads_i64 _ _ |>.1 g3).1)
      (named_cons (among_self rfl (reads_pinnedChatLevel _ _ |>.1 g4).1)
      (named_cons (among_self rfl (reads_flag _ _ |>.1 g5).1)
      named_nil))))

theorem reads_privmsg {tc : TimeCodec} (hc : TimeCodec.Stable tc) : Reads (privmsgForm tc) (Privmsg.de tc) (Privmsg.ser tc) := by
  refine ReadsPart.total (reads_struct (fs := [
      must (b!"channel") .text, must (b!"channel_id") .text, may (b!"msg_id") .text, must (b!"id") .text,
      must (b!"sender") userForm, may (b!"reply_to") replyForm, may (b!"pinned_chat") pinnedChatForm,
      must (b!"text") .text, must (b!"is_action") .flag, must (b!"badges") (.list badgeForm), may (b!"color") .text,
      may (b!"custom_reward_id") .text, may (b!"bits") .u64, must (b!"emotes") .text, must (b!"timestamp") (.time tc)]) (de := (Privmsg.de tc)) (ser := fun (a : Privmsg) => some [
      (b!"channel", Value.str a.channel),
      (b!"channel_id", Value.str a.channelId),
      (b!"msg_id", serOption Value.str a.msgId),
      (b!"id", Value.str a.id),
      (b!"sender", User.ser a.sender),
      (b!"reply_to", serOption Reply.ser a.replyTo),
      (b!"pinned_chat", serOption PinnedChat.ser a.pinnedChat),
      (b!"text", Value.str a.text),
      (b!"is_action", Value.bool a.isAction),
      (b!"badges", serSeq Badge.ser a.badges),
      (b!"color", serOption Value.str a.color),
      (b!"custom_reward_id", serOption Value.str a.customRewardId),
      (b!"bits", serOption serNat a.bits),
      (b!"emotes", Value.str a.emotes),
      (b!"timestamp", tc.ser a.timestamp)])
    (G := fun a => deStr (Value.str a.channel) = some a.channel ∧
      deStr (Value.str a.channelId) = some a.channelId ∧
      deOption deStr (serOption Value.str a.msgId) = some a.msgId ∧
      deStr (Value.str a.id) = some a.id ∧
      User.de (User.ser a.sender) = some a.sender ∧
      deOption Reply.de (serOption Reply.ser a.replyTo) = some a.replyTo ∧
      deOption PinnedChat.de (serOption PinnedChat.ser a.pinnedChat) = some a.pinnedChat ∧
      deStr (Value.str a.text) = some a.text ∧
      deBool (Value.bool a.isAction) = some a.isAction ∧
      deSeq Badge.de (serSeq Badge.ser a.badges) = some a.badges ∧
      deOption deStr (serOption Value.str a.color) = some a.color ∧
      deOption deStr (serOption Value.str a.customRewardId) = some a.customRewardId ∧
      deOption deU64 (serOption serNat a.bits) = some a.bits ∧
      deStr (Value.str a.emotes) = some a.emotes ∧
      tc.de (tc.ser a.timestamp) = some a.timestamp) (show List.Nodup [
      b!"channel", b!"channel_id", b!"msg_id", b!"id", b!"sender", b!"reply_to", b!"pinned_chat", b!"text",
      b!"is_action", b!"badges", b!"color", b!"custom_reward_id", b!"bits", b!"emotes", b!"timestamp"] by decide) ?_ ?_)
  · intro v a
    unfold Privmsg.de
    simp only [Option.bind_eq_bind, Option.bind_eq_some_iff, Option.pure_def, Option.some.injEq,
      field_reads reads_text, optField_reads reads_text noNull_text, field_reads reads_user, optField_reads reads_reply (noNull_object _), optField_reads reads_pinnedChat (noNull_object _), field_reads reads_flag, field_reads (reads_list reads_badge), optField_reads reads_u64 noNull_u64, field_reads (reads_time hc)]
    constructor
    · rintro ⟨kvs, h0, x1, ⟨a1, g1⟩, x2, ⟨a2, g2⟩, x3, ⟨a3, g3⟩, x4, ⟨a4, g4⟩, x5, ⟨a5, g5⟩, x6, ⟨a6, g6⟩, x7, ⟨a7, g7⟩, x8, ⟨a8, g8⟩, x9, ⟨a9, g9⟩, x10, ⟨a10, g10⟩, x11, ⟨a11, g11⟩, x12, ⟨a12, g12⟩, x13, ⟨a13, g13⟩, x14, ⟨a14, g14⟩, x15, ⟨a15, g15⟩, rfl⟩
      exact ⟨kvs, _, h0, rfl, (named_cons a1 (named_cons a2 (named_cons a3 (named_cons a4 (named_cons a5 (named_cons a6 (named_cons a7 (named_cons a8 (named_cons a9 (named_cons a10 (named_cons a11 (named_cons a12 (named_cons a13 (named_cons a14 (named_cons a15 named_nil))))))))))))))), g1, g2, g3, g4, g5, g6, g7, g8, g9, g10, g11, g12, g13, g14, g15⟩
    · rintro ⟨kvs, cs, h0, h1, h2, h3⟩
      cases h1
      obtain ⟨g1, g2, g3, g4, g5, g6, g7, g8, g9, g10, g11, g12, g13, g14, g15⟩ := h3
      obtain ⟨a1, h2⟩ := of_named_cons h2
      obtain ⟨a2, h2⟩ := of_named_cons h2
      obtain ⟨a3, h2⟩ := of_named_cons h2
      obtain ⟨a4, h2⟩ := of_named_cons h2
      obtain ⟨a5, h2⟩ := of_named_cons h2
      obtain ⟨a6, h2⟩ := of_named_cons h2
      obtain ⟨a7, h2⟩ := of_named_cons h2
      obtain ⟨a8, h2⟩ := of_named_cons h2
      obtain ⟨a9, h2⟩ := of_named_cons h2
      obtain ⟨a10, h2⟩ := of_named_cons h2
      obtain ⟨a11, h2⟩ := of_named_cons h2
      obtain ⟨a12, h2⟩ := of_named_cons h2
      obtain ⟨a13, h2⟩ := of_named_cons h2
      obtain ⟨a14, h2⟩ := of_named_cons h2
      obtain ⟨a15, h2⟩ := of_named_cons h2
      exact ⟨kvs, h0, _, ⟨a1, g1⟩, _, ⟨a2, g2⟩, _, ⟨a3, g3⟩, _, ⟨a4, g4⟩, _, ⟨a5, g5⟩, _, ⟨a6, g6⟩, _, ⟨a7, g7⟩, _, ⟨a8, g8⟩, _, ⟨a9, g9⟩, _, ⟨a10, g10⟩, _, ⟨a11, g11⟩, _, ⟨a12, g12⟩, _, ⟨a13, g13⟩, _, ⟨a14, g14⟩, _, ⟨a15, g15⟩, rfl⟩
  · intro a cs h1 h3
    cases h1
    obtain ⟨g1, g2, g3, g4, g5, g6, g7, g8, g9, g10, g11, g12, g13, g14, g15⟩ := h3
    exact named_cons (among_self rfl (reads_text _ _ |>.1 g1).1)
      (named_cons (among_self rfl (reads_text _ _ |>.1 g2).1)
      (named_cons (among_self rfl (reads_option reads_text noNull_text _ _ |>.1 g3).1)
      (named_cons (among_self rfl (reads_text _ _ |>.1 g4).1)
      (named_cons (among_self rfl (reads_user _ _ |>.1 g5).1)
      (named_cons (among_self rfl (reads_option reads_reply (noNull_object _) _ _ |>.1 g6).1)
      (named_cons (among_self rfl (reads_option reads_pinnedChat (noNull_object _) _ _ |>.1 g7).1)
      (named_cons (among_self rfl (reads_text _ _ |>.1 g8).1)
      (named_cons (among_self rfl (reads_flag _ _ |>.1 g9).1)
      (named_cons (among_self rfl (reads_list reads_badge _ _ |>.1 g10).1)
      (named_cons (among_self rfl (reads_option reads_text noNull_text _ _ |>.1 g11).1)
      (named_cons (among_self rfl (reads_option reads_text noNull_text _ _ |>.1 g12).1)
      (named_cons (among_self rfl (reads_option reads_u64 noNull_u64 _ _ |>.1 g13).1)
      (named_cons (among_self rfl (reads_text _ _ |>.1 g14).1)
      (named_cons (among_self rfl (reads_time hc _ _ |>.1 g15).1)
      named_nil))))))))))))))

def followersOnlyPartEnabled : FollowersOnly → Option Value
  | .enabled d => some (serOption serDuration d)
  | _ => none

theorem reads_followersOnly : Reads followersOnlyForm FollowersOnly.de FollowersOnly.ser := by
  refine reads_enum (units := [(b!"disabled", .disabled)]) (vs := [
    ⟨b!"enabled", .orNull .duration, fun v => (deOption deDuration v).map .enabled, followersOnlyPartEnabled⟩])
    (show List.Nodup [b!"disabled"] by decide)
    (show List.Nodup (α := Bytes) [b!"enabled"] by decide)
    (show ∀ u ∈ [b!"disabled"], u ∉ ([b!"enabled"] : List Bytes) by decide) ?_ ?_ ?_
  · intro u a; cases a <;> simp [FollowersOnly.ser, eq_comm]
  · simp only [List.forall_mem_cons, List.not_mem_nil, false_imp_iff, implies_true, and_true]
    intro a c; cases a <;> simp [FollowersOnly.ser, followersOnlyPartEnabled]
  · simp only [List.forall_mem_cons, List.not_mem_nil, false_imp_iff, implies_true, and_true]
    exact reads_map (reads_option reads_duration noNull_duration) FollowersOnly.enabled (fun _ => rfl)
        (fun b c h => by cases b <;> first | exact ⟨_, rfl⟩ | cases h) (fun a a' h => by cases h; rfl)

theorem reads_roomState : Reads roomStateForm RoomState.de RoomState.ser := by
  refine ReadsPart.total (reads_struct (fs := [
      must (b!"channel") .text, must (b!"channel_id") .text, may (b!"emote_only") .flag,
      may (b!"followers_only") followersOnlyForm, may (b!"r9k") .flag, may (b!"slow") .duration,
      may (b!"subs_only") .flag]) (de := RoomState.de) (ser := fun (a : RoomState) => some [
      (b!"channel", Value.str a.channel),
      (b!"channel_id", Value.str a.channelId),
      (b!"emote_only", serOption Value.bool a.emoteOnly),
      (b!"followers_only", serOption FollowersOnly.ser a.followersOnly),
      (b!"r9k", serOption Value.bool a.r9k),
      (b!"slow", serOption serDuration a.slow),
      (b!"subs_only", serOption Value.bool a.subsOnly)])
    (G := fun a => deStr (Value.str a.channel) = some a.channel ∧
      deStr (Value.str a.channelId) = some a.channelId ∧
      deOption deBool (serOption Value.bool a.emoteOnly) = some a.emoteOnly ∧
      deOption FollowersOnly.de (serOption FollowersOnly.ser a.followersOnly) = some a.followersOnly ∧
      deOption deBool (serOption Value.bool a.r9k) = some a.r9k ∧
      deOption deDuration (serOption serDuration a.slow) = some a.slow ∧
      deOption deBool (serOption Value.bool a.subsOnly) = some a.subsOnly) (show List.Nodup [
      b!"channel", b!"channel_id", b!"emote_only", b!"followers_only", b!"r9k", b!"slow", b!"subs_only"] by decide) ?_ ?_)
  · intro v a
    unfold RoomState.de
    simp only [Option.bind_eq_bind, Option.bind_eq_some_iff, Option.pure_def, Option.some.injEq,
      field_reads reads_text, optField_reads reads_flag noNull_flag, optField_reads reads_followersOnly (noNull_oneOf _ _), optField_reads reads_duration noNull_duration]
    constructor
    · rintro ⟨kvs, h0, x1, ⟨a1, g1⟩, x2, ⟨a2, g2⟩, x3, ⟨a3, g3⟩, x4, ⟨a4, g4⟩, x5, ⟨a5, g5⟩, x6, ⟨a6, g6⟩, x7, ⟨a7, g7⟩, rfl⟩
      exact ⟨kvs, _, h0, rfl, (named_cons a1 (named_cons a2 (named_cons a3 (named_cons a4 (named_cons a5 (named_cons a6 (named_cons a7 named_nil))))))), g1, g2, g3, g4, g5, g6, g7⟩
    · rintro ⟨kvs, cs, h0, h1, h2, h3⟩
      cases h1
      obtain ⟨g1, g2, g3, g4, g5, g6, g7⟩ := h3
      obtain ⟨a1, h2⟩ := of_named_cons h2
      obtain ⟨a2, h2⟩ := of_named_cons h2
      obtain ⟨a3, h2⟩ := of_named_cons h2
      obtain ⟨a4, h2⟩ := of_named_cons h2
      obtain ⟨a5, h2⟩ := of_named_cons h2
      obtain ⟨a6, h2⟩ := of_named_cons h2
      obtain ⟨a7, h2⟩ := of_named_cons h2
      exact ⟨kvs, h0, _, ⟨a1, g1⟩, _, ⟨a2, g2⟩, _, ⟨a3, g3⟩, _, ⟨a4, g4⟩, _, ⟨a5, g5⟩, _, ⟨a6, g6⟩, _, ⟨a7, g7⟩, rfl⟩
  · intro a cs h1 h3
    cases h1
    obtain ⟨g1, g2, g3, g4, g5, g6, g7⟩ := h3
    exact named_cons (among_self rfl (reads_text _ _ |>.1 g1).1)
      (named_cons (among_self rfl (reads_text _ _ |>.1 g2).1)
      (named_cons (among_self rfl (reads_option reads_flag noNull_flag _ _ |>.1 g3).1)
      (named_cons (among_self rfl (reads_option reads_followersOnly (noNull_oneOf _ _) _ _ |>.1 g4).1)
      (named_cons (among_self rfl (reads_option reads_flag noNull_flag _ _ |>.1 g5).1)
      (named_cons (among_self rfl (reads_option reads_duration noNull_duration _ _ |>.1 g6).1)
      (named_cons (among_self rfl (reads_option reads_flag noNull_flag _ _ |>.1 g7).1)
      named_nil))))))

theorem reads_userState : Reads userStateForm UserState.de UserState.ser := by
  refine ReadsPart.total (reads_struct (fs := [
      must (b!"channel") .text, must (b!"user_name") .text, must (b!"badges") (.list badgeForm),
      must (b!"emote_sets") (.list .text), may (b!"color") .text]) (de := UserState.de) (ser := fun (a : UserState) => some [
      (b!"channel", Value.str a.channel),
      (b!"user_name", Value.str a.userName),
      (b!"badges", serSeq Badge.ser a.badges),
      (b!"emote_sets", serSeq Value.str a.emoteSets),
      (b!"color", serOption Value.str a.color)])
    (G := fun a => deStr (Value.str a.channel) = some a.channel ∧
      deStr (Value.str a.userName) = some a.userName ∧
      deSeq Badge.de (serSeq Badge.ser a.badges) = some a.badges ∧
      deSeq deStr (serSeq Value.str a.emoteSets) = some a.emoteSets ∧
      deOption deStr (serOption Value.str a.color) = some a.color) (show List.Nodup [
      b!"channel", b!"user_name", b!"badges", b!"emote_sets", b!"color"] by decide) ?_ ?_)
  · intro v a
    unfold UserState.de
    simp only [Option.bind_eq_bind, Option.bind_eq_some_iff, Option.pure_def, Option.some.injEq,
      field_reads reads_text, field_reads (reads_list reads_badge), field_reads (reads_list reads_text), optField_reads reads_text noNull_text]
    constructor
    · rintro ⟨kvs, h0, x1, ⟨a1, g1⟩, x2, ⟨a2, g2⟩, x3, ⟨a3, g3⟩, x4, ⟨a4, g4⟩, x5, ⟨a5, g5⟩, rfl⟩
      exact ⟨kvs, _, h0, rfl, (named_cons a1 (named_cons a2 (named_cons a3 (named_cons a4 (named_cons a5 named_nil))))), g1, g2, g3, g4, g5⟩
    · rintro ⟨kvs, cs, h0, h1, h2, h3⟩
      cases h1
      obtain ⟨g1, g2, g3, g4, g5⟩ := h3
      obtain ⟨a1, h2⟩ := of_named_cons h2
      obtain ⟨a2, h2⟩ := of_named_cons h2
      obtain ⟨a3, h2⟩ := of_named_cons h2
      obtain ⟨a4, h2⟩ := of_named_cons h2
      obtain ⟨a5, h2⟩ := of_named_cons h2
      exact ⟨kvs, h0, _, ⟨a1, g1⟩, _, ⟨a2, g2⟩, _, ⟨a3, g3⟩, _, ⟨a4, g4⟩, _, ⟨a5, g5⟩, rfl⟩
  · intro a cs h1 h3
    cases h1
    obtain ⟨g1, g2, g3, g4, g5⟩ := h3
    exact named_cons (among_self rfl (reads_text _ _ |>.1 g1).1)
      (named_cons (among_self rfl (reads_text _ _ |>.1 g2).1)
      (named_cons (among_self rfl (reads_list reads_badge _ _ |>.1 g3).1)
      (named_cons (among_self rfl (reads_list reads_text _ _ |>.1 g4).1)
      (named_cons (among_self rfl (reads_option reads_text noNull_text _ _ |>.1 g5).1)
      named_nil))))

theorem reads_whisper : Reads whisperForm Whisper.de Whisper.ser := by
  refine ReadsPart.total (reads_struct (fs := [
      must (b!"recipient") .text, must (b!"sender") userForm, must (b!"text") .text,
      must (b!"badges") (.list badgeForm), must (b!"emotes") .text, may (b!"color") .text]) (de := Whisper.de) (ser := fun (a : Whisper) => some [
      (b!"recipient", Value.str a.recipient),
      (b!"sender", User.ser a.sender),
      (b!"text", Value.str a.text),
      (b!"badges", serSeq Badge.ser a.badges),
      (b!"emotes", Value.str a.emotes),
      (b!"color", serOption Value.str a.color)])
    (G := fun a => deStr (Value.str a.recipient) = some a.recipient ∧
      User.de (User.ser a.sender) = some a.sender ∧
      deStr (Value.str a.text) = some a.text ∧
      deSeq Badge.de (serSeq Badge.ser a.badges) = some a.badges ∧
      deStr (Value.str a.emotes) = some a.emotes ∧
      deOption deStr (serOption Value.str a.color) = some a.color) (show List.Nodup [
      b!"recipient", b!"sender", b!"text", b!"badges", b!"emotes", b!"color"] by decide) ?_ ?_)
  · intro v a
    unfold Whisper.de
    simp only [Option.bind_eq_bind, Option.bind_eq_some_iff, Option.pure_def, Option.some.injEq,
      field_reads reads_text, field_reads reads_user, field_reads (reads_list reads_badge), optField_reads reads_text noNull_text]
    constructor
    · rintro ⟨kvs, h0, x1, ⟨a1, g1⟩, x2, ⟨a2, g2⟩, x3, ⟨a3, g3⟩, x4, ⟨a4, g4⟩, x5, ⟨a5, g5⟩, x6, ⟨a6, g6⟩, rfl⟩
      exact ⟨kvs, _, h0, rfl, (named_cons a1 (named_cons a2 (named_cons a3 (named_cons a4 (named_cons a5 (named_cons a6 named_nil)))))), g1, g2, g3, g4, g5, g6⟩
    · rintro ⟨kvs, cs, h0, h1, h2, h3⟩
      cases h1
      obtain ⟨g1, g2, g3, g4, g5, g6⟩ := h3
      obtain ⟨a1, h2⟩ := of_named_cons h2
      obtain ⟨a2, h2⟩ := of_named_cons h2
      obtain ⟨a3, h2⟩ := of_named_cons h2
      obtain ⟨a4, h2⟩ := of_named_cons h2
      obtain ⟨a5, h2⟩ := of_named_cons h2
      obtain ⟨a6, h2⟩ := of_named_cons h2
      exact ⟨kvs, h0, _, ⟨a1, g1⟩, _, ⟨a2, g2⟩, _, ⟨a3, g3⟩, _, ⟨a4, g4⟩, _, ⟨a5, g5⟩, _, ⟨a6, g6⟩, rfl⟩
  · intro a cs h1 h3
    cases h1
    obtain ⟨g1, g2, g3, g4, g5, g6⟩ := h3
    exact named_cons (among_self rfl (reads_text _ _ |>.1 g1).1)
      (named_cons (among_self rfl (reads_user _ _ |>.1 g2).1)
      (named_cons (among_self rfl (reads_text _ _ |>.1 g3).1)
      (named_cons (among_self rfl (reads_list reads_badge _ _ |>.1 g4).1)
      (named_cons (among_self rfl (reads_text _ _ |>.1 g5).1)
      (named_cons (among_self rfl (reads_option reads_text noNull_text _ _ |>.1 g6).1)
      named_nil)))))

theorem reads_subGiftPromo : Reads subGiftPromoForm SubGiftPromo.de SubGiftPromo.ser := by
  refine ReadsPart.total (reads_struct (fs := [
      must (b!"total_gifts") .u64, must (b!"promo_name") .text]) (de := SubGiftPromo.de) (ser := fun (a : SubGiftPromo) => some [
      (b!"total_gifts", serNat a.totalGifts),
      (b!"promo_name", Value.str a.promoName)])
    (G := fun a => deU64 (serNat a.totalGifts) = some a.totalGifts ∧
      deStr (Value.str a.promoName) = some a.promoName) (show List.Nodup [
      b!"total_gifts", b!"promo_name"] by decide) ?_ ?_)
  · intro v a
    unfold SubGiftPromo.de
    simp only [Option.bind_eq_bind, Option.bind_eq_some_iff, Option.pure_def, Option.some.injEq,
      field_reads reads_u64, field_reads reads_text]
    constructor
    · rintro ⟨kvs, h0, x1, ⟨a1, g1⟩, x2, ⟨a2, g2⟩, rfl⟩
      exact ⟨kvs, _, h0, rfl, (named_cons a1 (named_cons a2 named_nil)), g1, g2⟩
    · rintro ⟨kvs, cs, h0, h1, h2, h3⟩
      cases h1
      obtain ⟨g1, g2⟩ := h3
      obtain ⟨a1, h2⟩ := of_named_cons h2
      obtain ⟨a2, h2⟩ := of_named_cons h2
      exact ⟨kvs, h0, _, ⟨a1, g1⟩, _, ⟨a2, g2⟩, rfl⟩
  · intro a cs h1 h3
    cases h1
    obtain ⟨g1, g2⟩ := h3
    exact named_cons (among_self rfl (reads_u64 _ _ |>.1 g1).1)
      (named_cons (among_self rfl (reads_text _ _ |>.1 g2).1)
      named_nil)

def eventPartSubOrResub : Event → Option (List (Bytes × Value))
  | .subOrResub y1 y2 y3 y4 y5 => some [
      (b!"is_resub", Value.bool y1),
      (b!"cumulative_months", serNat y2),
      (b!"streak_months", serOption serNat y3),
      (b!"sub_plan", Value.str y4),
      (b!"sub_plan_name", Value.str y5)]
  | _ => none

def eventGoodSubOrResub : Event → Prop
  | .subOrResub y1 y2 y3 y4 y5 =>
      deBool (Value.bool y1) = some y1 ∧
      deU64 (serNat y2) = some y2 ∧
      deOption deU64 (serOption serNat y3) = some y3 ∧
      deStr (Value.str y4) = some y4 ∧
      deStr (Value.str y5) = some y5
  | _ => False

theorem reads_eventSubOrResub : ReadsPart (.object [
      must (b!"is_resub") .flag, must (b!"cumulative_months") .u64, may (b!"streak_months") .u64,
      must (b!"sub_plan") .text, must (b!"sub_plan_name") .text]) Event.deSubOrResub (fun a => (eventPartSubOrResub a).map .map) := by
  refine reads_struct (G := eventGoodSubOrResub) (show List.Nodup [
      b!"is_resub", b!"cumulative_months", b!"streak_months", b!"sub_plan", b!"sub_plan_name"] by decide) ?_ ?_
  · intro v a
    unfold Event.deSubOrResub
    simp only [Option.bind_eq_bind, Option.bind_eq_some_iff, Option.pure_def, Option.some.injEq,
      field_reads reads_flag, field_reads reads_u64, optField_reads reads_u64 noNull_u64, field_reads reads_text]
    constructor
    · rintro ⟨kvs, h0, x1, ⟨a1, g1⟩, x2, ⟨a2, g2⟩, x3, ⟨a3, g3⟩, x4, ⟨a4, g4⟩, x5, ⟨a5, g5⟩, rfl⟩
      exact ⟨kvs, _, h0, rfl, (named_cons a1 (named_cons a2 (named_cons a3 (named_cons a4 (named_cons a5 named_nil))))), g1, g2, g3, g4, g5⟩
    · rintro ⟨kvs, cs, h0, h1, h2, h3⟩
      cases a <;> cases h1
      obtain ⟨g1, g2, g3, g4, g5⟩ := h3
      obtain ⟨a1, h2⟩ := of_named_cons h2
      obtain ⟨a2, h2⟩ := of_named_cons h2
      obtain ⟨a3, h2⟩ := of_named_cons h2
      obtain ⟨a4, h2⟩ := of_named_cons h2
      obtain ⟨a5, h2⟩ := of_named_cons h2
      exact ⟨kvs, h0, _, ⟨a1, g1⟩, _, ⟨a2, g2⟩, _, ⟨a3, g3⟩, _, ⟨a4, g4⟩, _, ⟨a5, g5⟩, rfl⟩
  · intro a cs h1 h3
    cases a <;> cases h1
    obtain ⟨g1, g2, g3, g4, g5⟩ := h3
    exact named_cons (among_self rfl (reads_flag _ _ |>.1 g1).1)
      (named_cons (among_self rfl (reads_u64 _ _ |>.1 g2).1)
      (named_cons (among_self rfl (reads_option reads_u64 noNull_u64 _ _ |>.1 g3).1)
      (named_cons (among_self rfl (reads_text _ _ |>.1 g4).1)
      (named_cons (among_self rfl (reads_text _ _ |>.1 g5).1)
      named_nil))))

def eventPartRaid : Event → Option (List (Bytes × Value))
  | .raid y1 y2 => some [
      (b!"viewer_count", serNat y1),
      (b!"profile_image_url", Value.str y2)]
  | _ => none

def eventGoodRaid : Event → Prop
  | .raid y1 y2 =>
      deU64 (serNat y1) = some y1 ∧
      deStr (Value.str y2) = some y2
  | _ => False

theorem reads_eventRaid : ReadsPart (.object [
      must (b!"viewer_count") .u64, must (b!"profile_image_url") .text]) Event.deRaid (fun a => (eventPartRaid a).map .map) := by
  refine reads_struct (G := eventGoodRaid) (show List.Nodup [
      b!"viewer_count", b!"profile_image_url"] by decide) ?_ ?_
  · intro v a
    unfold Event.deRaid
    simp only [Option.bind_eq_bind, Option.bind_eq_some_iff, Option.pure_def, Option.some.injEq,
      field_reads reads_u64, field_reads reads_text]
    constructor
    · rintro ⟨kvs, h0, x1, ⟨a1, g1⟩, x2, ⟨a2, g2⟩, rfl⟩
      exact ⟨kvs, _, h0, rfl, (named_cons a1 (named_cons a2 named_nil)), g1, g2⟩
    · rintro ⟨kvs, cs, h0, h1, h2, h3⟩
      cases a <;> cases h1
      obtain ⟨g1, g2⟩ := h3
      obtain ⟨a1, h2⟩ := of_named_cons h2
      obtain ⟨a2, h2⟩ := of_named_cons h2
      exact ⟨kvs, h0, _, ⟨a1, g1⟩, _, ⟨a2, g2⟩, rfl⟩
  · intro a cs h1 h3
    cases a <;> cases h1
    obtain ⟨g1, g2⟩ := h3
    exact named_cons (among_self rfl (reads_u64 _ _ |>.1 g1).1)
      (named_cons (among_self rfl (reads_text _ _ |>.1 g2).1)
      named_nil)

def eventPartSubGift : Event → Option (List (Bytes × Value))
  | .subGift y1 y2 y3 y4 y5 => some [
      (b!"cumulative_months", serNat y1),
      (b!"recipient", User.ser y2),
      (b!"sub_plan", Value.str y3),
      (b!"sub_plan_name", Value.str y4),
      (b!"num_gifted_months", serNat y5)]
  | _ => none

def eventGoodSubGift : Event → Prop
  | .subGift y1 y2 y3 y4 y5 =>
      deU64 (serNat y1) = some y1 ∧
      User.de (User.ser y2) = some y2 ∧
      deStr (Value.str y3) = some y3 ∧
      deStr (Value.str y4) = some y4 ∧
      deU64 (serNat y5) = some y5
  | _ => False

theorem reads_eventSubGift : ReadsPart (.object [
      must (b!"cumulative_months") .u64, must (b!"recipient") userForm, must (b!"sub_plan") .text,
      must (b!"sub_plan_name") .text, must (b!"num_gifted_months") .u64]) Event.deSubGift (fun a => (eventPartSubGift a).map .map) := by
  refine reads_struct (G := eventGoodSubGift) (show List.Nodup [
      b!"cumulative_months", b!"recipient", b!"sub_plan", b!"sub_plan_name", b!"num_gifted_months"] by decide) ?_ ?_
  · intro v a
    unfold Event.deSubGift
    simp only [Option.bind_eq_bind, Option.bind_eq_some_iff, Option.pure_def, Option.some.injEq,
      field_reads reads_u64, field_reads reads_user, field_reads reads_text]
    constructor
    · rintro ⟨kvs, h0, x1, ⟨a1, g1⟩, x2, ⟨a2, g2⟩, x3, ⟨a3, g3⟩, x4, ⟨a4, g4⟩, x5, ⟨a5, g5⟩, rfl⟩
      exact ⟨kvs, _, h0, rfl, (named_cons a1 (named_cons a2 (named_cons a3 (named_cons a4 (named_cons a5 named_nil))))), g1, g2, g3, g4, g5⟩
    · rintro ⟨kvs, cs, h0, h1, h2, h3⟩
      cases a <;> cases h1
      obtain ⟨g1, g2, g3, g4, g5⟩ := h3
      obtain ⟨a1, h2⟩ := of_named_cons h2
      obtain ⟨a2, h2⟩ := of_named_cons h2
      obtain ⟨a3, h2⟩ := of_named_cons h2
      obtain ⟨a4, h2⟩ := of_named_cons h2
      obtain ⟨a5, h2⟩ := of_named_cons h2
      exact ⟨kvs, h0, _, ⟨a1, g1⟩, _, ⟨a2, g2⟩, _, ⟨a3, g3⟩, _, ⟨a4, g4⟩, _, ⟨a5, g5⟩, rfl⟩
  · intro a cs h1 h3
    cases a <;> cases h1
    obtain ⟨g1, g2, g3, g4, g5⟩ := h3
    exact named_cons (among_self rfl (reads_u64 _ _ |>.1 g1).1)
      (named_cons (among_self rfl (reads_user _ _ |>.1 g2).1)
      (named_cons (among_self rfl (reads_text _ _ |>.1 g3).1)
      (named_cons (among_self rfl (reads_text _ _ |>.1 g4).1)
      (named_cons (among_self rfl (reads_u64 _ _ |>.1 g5).1)
      named_nil))))

def eventPartSubMysteryGift : Event → Option (List (Bytes × Value))
  | .subMysteryGift y1 y2 y3 => some [
      (b!"count", serNat y1),
      (b!"sender_total_gifts", serNat y2),
      (b!"sub_plan", Value.str y3)]
  | _ => none

def eventGoodSubMysteryGift : Event → Prop
  | .subMysteryGift y1 y2 y3 =>
      deU64 (serNat y1) = some y1 ∧
      deU64 (serNat y2) = some y2 ∧
      deStr (Value.str y3) = some y3
  | _ => False

theorem reads_eventSubMysteryGift : ReadsPart (.object [
      must (b!"count") .u64, must (b!"sender_total_gifts") .u64, must (b!"sub_plan") .text]) Event.deSubMysteryGift (fun a => (eventPartSubMysteryGift a).map .map) := by
  refine reads_struct (G := eventGoodSubMysteryGift) (show List.Nodup [
      b!"count", b!"sender_total_gifts", b!"sub_plan"] by decide) ?_ ?_
  · intro v a
    unfold Event.deSubMysteryGift
    simp only [Option.bind_eq_bind, Option.bind_eq_some_iff, Option.pure_def, Option.some.injEq,
      field_reads reads_u64, field_reads reads_text]
    constructor
    · rintro ⟨kvs, h0, x1, ⟨a1, g1⟩, x2, ⟨a2, g2⟩, x3, ⟨a3, g3⟩, rfl⟩
      exact ⟨kvs, _, h0, rfl, (named_cons a1 (named_cons a2 (named_cons a3 named_nil))), g1, g2, g3⟩
    · rintro ⟨kvs, cs, h0, h1, h2, h3⟩
      cases a <;> cases h1
      obtain ⟨g1, g2, g3⟩ := h3
      obtain ⟨a1, h2⟩ := of_named_cons h2
      obtain ⟨a2, h2⟩ := of_named_cons h2
      obtain ⟨a3, h2⟩ := of_named_cons h2
      exact ⟨kvs, h0, _, ⟨a1, g1⟩, _, ⟨a2, g2⟩, _, ⟨a3, g3⟩, rfl⟩
  · intro a cs h1 h3
    cases a <;> cases h1
    obtain ⟨g1, g2, g3⟩ := h3
    exact named_cons (among_self rfl (reads_u64 _ _ |>.1 g1).1)
      (named_cons (among_self rfl (reads_u64 _ _ |>.1 g2).1)
      (named_cons (among_self rfl (reads_text _ _ |>.1 g3).1)
      named_nil))

def eventPartAnonSubMysteryGift : Event → Option (List (Bytes × Value))
  | .anonSubMysteryGift y1 y2 => some [
      (b!"count", serNat y1),
      (b!"sub_plan", Value.str y2)]
  | _ => none

def eventGoodAnonSubMysteryGift : Event → Prop
  | .anonSubMysteryGift y1 y2 =>
      deU64 (serNat y1) = some y1 ∧
      deStr (Value.str y2) = some y2
  | _ => False

theorem reads_eventAnonSubMysteryGift : ReadsPart (.object [
      must (b!"count") .u64, must (b!"sub_plan") .text]) Event.deAnonSubMysteryGift (fun a => (eventPartAnonSubMysteryGift a).map .map) := by
  refine reads_struct (G := eventGoodAnonSubMysteryGift) (show List.Nodup [
      b!"count", b!"sub_plan"] by decide) ?_ ?_
  · intro v a
    unfold Event.deAnonSubMysteryGift
    simp only [Option.bind_eq_bind, Option.bind_eq_some_iff, Option.pure_def, Option.some.injEq,
      field_reads reads_u64, field_reads reads_text]
    constructor
    · rintro ⟨kvs, h0, x1, ⟨a1, g1⟩, x2, ⟨a2, g2⟩, rfl⟩
      exact ⟨kvs, _, h0, rfl, (named_cons a1 (named_cons a2 named_nil)), g1, g2⟩
    · rintro ⟨kvs, cs, h0, h1, h2, h3⟩
      cases a <;> cases h1
      obtain ⟨g1, g2⟩ := h3
      obtain ⟨a1, h2⟩ := of_named_cons h2
      obtain ⟨a2, h2⟩ := of_named_cons h2
      exact ⟨kvs, h0, _, ⟨a1, g1⟩, _, ⟨a2, g2⟩, rfl⟩
  · intro a cs h1 h3
    cases a <;> cases h1
    obtain ⟨g1, g2⟩ := h3
    exact named_cons (among_self rfl (reads_u64 _ _ |>.1 g1).1)
      (named_cons (among_self rfl (reads_text _ _ |>.1 g2).1)
      named_nil)

def eventPartGiftPaidUpgrade : Event → Option (List (Bytes × Value))
  | .giftPaidUpgrade y1 y2 y3 => some [
      (b!"gifter_login", Value.str y1),
      (b!"gifter_name", Value.str y2),
      (b!"promotion", serOption SubGiftPromo.ser y3)]
  | _ => none

def eventGoodGiftPaidUpgrade : Event → Prop
  | .giftPaidUpgrade y1 y2 y3 =>
      deStr (Value.str y1) = some y1 ∧
      deStr (Value.str y2) = some y2 ∧
      deOption SubGiftPromo.de (serOption SubGiftPromo.ser y3) = some y3
  | _ => False

theorem reads_eventGiftPaidUpgrade : ReadsPart (.object [
      must (b!"gifter_login") .text, must (b!"gifter_name") .text, may (b!"promotion") subGiftPromoForm]) Event.deGiftPaidUpgrade (fun a => (eventPartGiftPaidUpgrade a).map .map) := by
  refine reads_struct (G := eventGoodGiftPaidUpgrade) (show List.Nodup [
      b!"gifter_login", b!"gifter_name", b!"promotion"] by decide) ?_ ?_
  · intro v a
    unfold Event.deGiftPaidUpgrade
    simp only [Option.bind_eq_bind, Option.bind_eq_some_iff, Option.pure_def, Option.some.injEq,
      field_reads reads_text, optField_reads reads_subGiftPromo (noNull_object _)]
    constructor
    · rintro ⟨kvs, h0, x1, ⟨a1, g1⟩, x2, ⟨a2, g2⟩, x3, ⟨a3, g3⟩, rfl⟩
      exact ⟨kvs, _, h0, rfl, (named_cons a1 (named_cons a2 (named_cons a3 named_nil))), g1, g2, g3⟩
    · rintro ⟨kvs, cs, h0, h1, h2, h3⟩
      cases a <;> cases h1
      obtain ⟨g1, g2, g3⟩ := h3
      obtain ⟨a1, h2⟩ := of_named_cons h2
      obtain ⟨a2, h2⟩ := of_named_cons h2
      obtain ⟨a3, h2⟩ := of_named_cons h2
      exact ⟨kvs, h0, _, ⟨a1, g1⟩, _, ⟨a2, g2⟩, _, ⟨a3, g3⟩, rfl⟩
  · intro a cs h1 h3
    cases a <;> cases h1
    obtain ⟨g1, g2, g3⟩ := h3
    exact named_cons (among_self rfl (reads_text _ _ |>.1 g1).1)
      (named_cons (among_self rfl (reads_text _ _ |>.1 g2).1)
      (named_cons (among_self rfl (reads_option reads_subGiftPromo (noNull_object _) _ _ |>.1 g3).1)
      named_nil))

def eventPartAnonGiftPaidUpgrade : Event → Option (List (Bytes × Value))
  | .anonGiftPaidUpgrade y1 => some [
      (b!"promotion", serOption SubGiftPromo.ser y1)]
  | _ => none

def eventGoodAnonGiftPaidUpgrade : Event → Prop
  | .anonGiftPaidUpgrade y1 =>
      deOption SubGiftPromo.de (serOption SubGiftPromo.ser y1) = some y1
  | _ => False

theorem reads_eventAnonGiftPaidUpgrade : ReadsPart (.object [
      may (b!"promotion") subGiftPromoForm]) Event.deAnonGiftPaidUpgrade (fun a => (eventPartAnonGiftPaidUpgrade a).map .map) := by
  refine reads_struct (G := eventGoodAnonGiftPaidUpgrade) (show List.Nodup [
      b!"promotion"] by decide) ?_ ?_
  · intro v a
    unfold Event.deAnonGiftPaidUpgrade
    simp only [Option.bind_eq_bind, Option.bind_eq_some_iff, Option.pure_def, Option.some.injEq,
      optField_reads reads_subGiftPromo (noNull_object _)]
    constructor
    · rintro ⟨kvs, h0, x1, ⟨a1, g1⟩, rfl⟩
      exact ⟨kvs, _, h0, rfl, (named_cons a1 named_nil), g1⟩
    · rintro ⟨kvs, cs, h0, h1, h2, h3⟩
      cases a <;> cases h1
      have g1 := h3
      obtain ⟨a1, h2⟩ := of_named_cons h2
      exact ⟨kvs, h0, _, ⟨a1, g1⟩, rfl⟩
  · intro a cs h1 h3
    cases a <;> cases h1
    have g1 := h3
    exact named_cons (among_self rfl (reads_option reads_subGiftPromo (noNull_object _) _ _ |>.1 g1).1)
      named_nil

def eventPartRitual : Event → Option (List (Bytes × Value))
  | .ritual y1 => some [
      (b!"name", Value.str y1)]
  | _ => none

def eventGoodRitual : Event → Prop
  | .ritual y1 =>
      deStr (Value.str y1) = some y1
  | _ => False

theorem reads_eventRitual : ReadsPart (.object [
      must (b!"name") .text]) Event.deRitual (fun a => (eventPartRitual a).map .map) := by
  refine reads_struct (G := eventGoodRitual) (show List.Nodup [
      b!"name"] by decide) ?_ ?_
  · intro v a
    unfold Event.deRitual
    simp only [Option.bind_eq_bind, Option.bind_eq_some_iff, Option.pure_def, Option.some.injEq,
      field_reads reads_text]
    constructor
    · rintro ⟨kvs, h0, x1, ⟨a1, g1⟩, rfl⟩
      exact ⟨kvs, _, h0, rfl, (named_cons a1 named_nil), g1⟩
    · rintro ⟨kvs, cs, h0, h1, h2, h3⟩
      cases a <;> cases h1
      have g1 := h3
      obtain ⟨a1, h2⟩ := of_named_cons h2
      exact ⟨kvs, h0, _, ⟨a1, g1⟩, rfl⟩
  · intro a cs h1 h3
    cases a <;> cases h1
    have g1 := h3
    exact named_cons (among_self rfl (reads_text _ _ |>.1 g1).1)
      named_nil

def eventPartBitsBadgeTier : Event → Option (List (Bytes × Value))
  | .bitsBadgeTier y1 => some [
      (b!"tier", serNat y1)]
  | _ => none

def eventGoodBitsBadgeTier : Event → Prop
  | .bitsBadgeTier y1 =>
      deU64 (serNat y1) = some y1
  | _ => False

theorem reads_eventBitsBadgeTier : ReadsPart (.object [
      must (b!"tier") .u64]) Event.deBitsBadgeTier (fun a => (eventPartBitsBadgeTier a).map .map) := by
  refine reads_struct (G := eventGoodBitsBadgeTier) (show List.Nodup [
      b!"tier"] by decide) ?_ ?_
  · intro v a
    unfold Event.deBitsBadgeTier
    simp only [Option.bind_eq_bind, Option.bind_eq_some_iff, Option.pure_def, Option.some.injEq,
      field_reads reads_u64]
    constructor
    · rintro ⟨kvs, h0, x1, ⟨a1, g1⟩, rfl⟩
      exact ⟨kvs, _, h0, rfl, (named_cons a1 named_nil), g1⟩
    · rintro ⟨kvs, cs, h0, h1, h2, h3⟩
      cases a <;> cases h1
      have g1 := h3
      obtain ⟨a1, h2⟩ := of_named_cons h2
      exact ⟨kvs, h0, _, ⟨a1, g1⟩, rfl⟩
  · intro a cs h1 h3
    cases a <;> cases h1
    have g1 := h3
    exact named_cons (among_self rfl (reads_u64 _ _ |>.1 g1).1)
      named_nil

def eventPartAnnouncement : Event → Option (List (Bytes × Value))
  | .announcement y1 => some [
      (b!"highlight_color", Value.str y1)]
  | _ => none

def eventGoodAnnouncement : Event → Prop
  | .announcement y1 =>
      deStr (Value.str y1) = some y1
  | _ => False

theorem reads_eventAnnouncement : ReadsPart (.object [
      must (b!"highlight_color") .text]) Event.deAnnouncement (fun a => (eventPartAnnouncement a).map .map) := by
  refine reads_struct (G := eventGoodAnnouncement) (show List.Nodup [
      b!"highlight_color"] by decide) ?_ ?_
  · intro v a
    unfold Event.deAnnouncement
    simp only [Option.bind_eq_bind, Option.bind_eq_some_iff, Option.pure_def, Option.some.injEq,
      field_reads reads_text]
    constructor
    · rintro ⟨kvs, h0, x1, ⟨a1, g1⟩, rfl⟩
      exact ⟨kvs, _, h0, rfl, (named_cons a1 named_nil), g1⟩
    · rintro ⟨kvs, cs, h0, h1, h2, h3⟩
      cases a <;> cases h1
      have g1 := h3
      obtain ⟨a1, h2⟩ := of_named_cons h2
      exact ⟨kvs, h0, _, ⟨a1, g1⟩, rfl⟩
  · intro a cs h1 h3
    cases a <;> cases h1
    have g1 := h3
    exact named_cons (among_self rfl (reads_text _ _ |>.1 g1).1)
      named_nil

theorem reads_event : Reads eventForm Event.de Event.ser := by
  refine reads_enum (units := [(b!"unknown", .unknown)]) (vs := [
    ⟨b!"suborresub", .object [
      must (b!"is_resub") .flag, must (b!"cumulative_months") .u64, may (b!"streak_months") .u64,
      must (b!"sub_plan") .text, must (b!"sub_plan_name") .text], Event.deSubOrResub, fun a => (eventPartSubOrResub a).map .map⟩,
    ⟨b!"raid", .object [
      must (b!"viewer_count") .u64, must (b!"profile_image_url") .text], Event.deRaid, fun a => (eventPartRaid a).map .map⟩,
    ⟨b!"subgift", .object [
      must (b!"cumulative_months") .u64, must (b!"recipient") userForm, must (b!"sub_plan") .text,
      must (b!"sub_plan_name") .text, must (b!"num_gifted_months") .u64], Event.deSubGift, fun a => (eventPartSubGift a).map .map⟩,
    ⟨b!"submysterygift", .object [
      must (b!"count") .u64, must (b!"sender_total_gifts") .u64, must (b!"sub_plan") .text], Event.deSubMysteryGift, fun a => (eventPartSubMysteryGift a).map .map⟩,
    ⟨b!"anonsubmysterygift", .object [
      must (b!"count") .u64, must (b!"sub_plan") .text], Event.deAnonSubMysteryGift, fun a => (eventPartAnonSubMysteryGift a).map .map⟩,
    ⟨b!"giftpaidupgrade", .object [
      must (b!"gifter_login") .text, must (b!"gifter_name") .text, may (b!"promotion") subGiftPromoForm], Event.deGiftPaidUpgrade, fun a => (eventPartGiftPaidUpgrade a).map .map⟩,
    ⟨b!"anongiftpaidupgrade", .object [
      may (b!"promotion") subGiftPromoForm], Event.deAnonGiftPaidUpgrade, fun a => (eventPartAnonGiftPaidUpgrade a).map .map⟩,
    ⟨b!"ritual", .object [
      must (b!"name") .text], Event.deRitual, fun a => (eventPartRitual a).map .map⟩,
    ⟨b!"bitsbadgetier", .object [
      must (b!"tier") .u64], Event.deBitsBadgeTier, fun a => (eventPartBitsBadgeTier a).map .map⟩,
    ⟨b!"announcement", .object [
      must (b!"highlight_color") .text], Event.deAnnouncement, fun a => (eventPartAnnouncement a).map .map⟩])
    (show List.Nodup [b!"unknown"] by decide)
    (show List.Nodup (α := Bytes) [b!"suborresub", b!"raid", b!"subgift", b!"submysterygift", b!"anonsubmysterygift", b!"giftpaidupgrade", b!"anongiftpaidupgrade", b!"ritual", b!"bitsbadgetier", b!"announcement"] by decide)
    (show ∀ u ∈ [b!"unknown"], u ∉ ([b!"suborresub", b!"raid", b!"subgift", b!"submysterygift", b!"anonsubmysterygift", b!"giftpaidupgrade", b!"anongiftpaidupgrade", b!"ritual", b!"bitsbadgetier", b!"announcement"] : List Bytes) by decide) ?_ ?_ ?_
  · intro u a; cases a <;> simp [Event.ser, eq_comm]
  · simp only [List.forall_mem_cons, List.not_mem_nil, false_imp_iff, implies_true, and_true]
    refine ⟨?_, ?_, ?_, ?_, ?_, ?_, ?_, ?_, ?_, ?_⟩
    all_goals intro a c; cases a <;> simp [Event.ser, eventPartSubOrResub, eventPartRaid, eventPartSubGift, eventPartSubMysteryGift, eventPartAnonSubMysteryGift, eventPartGiftPaidUpgrade, eventPartAnonGiftPaidUpgrade, eventPartRitual, eventPartBitsBadgeTier, eventPartAnnouncement]
  · simp only [List.forall_mem_cons, List.not_mem_nil, false_imp_iff, implies_true, and_true]
    exact ⟨reads_eventSubOrResub, reads_eventRaid, reads_eventSubGift, reads_eventSubMysteryGift, reads_eventAnonSubMysteryGift, reads_eventGiftPaidUpgrade, reads_eventAnonGiftPaidUpgrade, reads_eventRitual, reads_eventBitsBadgeTier, reads_eventAnnouncement⟩

theorem reads_userNotice {tc : TimeCodec} (hc : TimeCodec.Stable tc) : Reads (userNoticeForm tc) (UserNotice.de tc) (UserNotice.ser tc) := by
  refine ReadsPart.total (reads_struct (fs := [
      must (b!"channel") .text, must (b!"channel_id") .text, may (b!"sender") userForm, may (b!"text") .text,
      may (b!"system_message") .text, must (b!"event") eventForm, must (b!"event_id") .text,
      must (b!"badges") (.list badgeForm), must (b!"emotes") .text, may (b!"color") .text,
      must (b!"message_id") .text, must (b!"timestamp") (.time tc)]) (de := (UserNotice.de tc)) (ser := fun (a : UserNotice) => some [
      (b!"channel", Value.str a.channel),
      (b!"channel_id", Value.str a.channelId),
      (b!"sender", serOption User.ser a.sender),
      (b!"text", serOption Value.str a.text),
      (b!"system_message", serOption Value.str a.systemMessage),
      (b!"event", Event.ser a.event),
      (b!"event_id", Value.str a.eventId),
      (b!"badges", serSeq Badge.ser a.badges),
      (b!"emotes", Value.str a.emotes),
      (b!"color", serOption Value.str a.color),
      (b!"message_id", Value.str a.messageId),
      (b!"timestamp", tc.ser a.timestamp)])
    (G := fun a => deStr (Value.str a.channel) = some a.channel ∧
      deStr (Value.str a.channelId) = some a.channelId ∧
      deOption User.de (serOption User.ser a.sender) = some a.sender ∧
      deOption deStr (serOption Value.str a.text) = some a.text ∧
      deOption deStr (serOption Value.str a.systemMessage) = some a.systemMessage ∧
      Event.de (Event.ser a.event) = some a.event ∧
      deStr (Value.str a.eventId) = some a.eventId ∧
      deSeq Badge.de (serSeq Badge.ser a.badges) = some a.badges ∧
      deStr (Value.str a.emotes) = some a.emotes ∧
      deOption deStr (serOption Value.str a.color) = some a.color ∧
      deStr (Value.str a.messageId) = some a.messageId ∧
      tc.de (tc.ser a.timestamp) = some a.timestamp) (show List.Nodup [
      b!"channel", b!"channel_id", b!"sender", b!"text", b!"system_message", b!"event", b!"event_id", b!"badges",
      b!"emotes", b!"color", b!"message_id", b!"timestamp"] by decide) ?_ ?_)
  · intro v a
    unfold UserNotice.de
    simp only [Option.bind_eq_bind, Option.bind_eq_some_iff, Option.pure_def, Option.some.injEq,
      field_reads reads_text, optField_reads reads_user (noNull_object _), optField_reads reads_text noNull_text, field_reads reads_event, field_reads (reads_list reads_badge), field_reads (reads_time hc)]
    constructor
    · rintro ⟨kvs, h0, x1, ⟨a1, g1⟩, x2, ⟨a2, g2⟩, x3, ⟨a3, g3⟩, x4, ⟨a4, g4⟩, x5, ⟨a5, g5⟩, x6, ⟨a6, g6⟩, x7, ⟨a7, g7⟩, x8, ⟨a8, g8⟩, x9, ⟨a9, g9⟩, x10, ⟨a10, g10⟩, x11, ⟨a11, g11⟩, x12, ⟨a12, g12⟩, rfl⟩
      exact ⟨kvs, _, h0, rfl, (named_cons a1 (named_cons a2 (named_cons a3 (named_cons a4 (named_cons a5 (named_cons a6 (named_cons a7 (named_cons a8 (named_cons a9 (named_cons a10 (named_cons a11 (named_cons a12 named_nil)))))))))))), g1, g2, g3, g4, g5, g6, g7, g8, g9, g10, g11, g12⟩
    · rintro ⟨kvs, cs, h0, h1, h2, h3⟩
      cases h1
      obtain ⟨g1, g2, g3, g4, g5, g6, g7, g8, g9, g10, g11, g12⟩ := h3
      obtain ⟨a1, h2⟩ := of_named_cons h2
      obtain ⟨a2, h2⟩ := of_named_cons h2
      obtain ⟨a3, h2⟩ := of_named_cons h2
      obtain ⟨a4, h2⟩ := of_named_cons h2
      obtain ⟨a5, h2⟩ := of_named_cons h2
      obtain ⟨a6, h2⟩ := of_named_cons h2
      obtain ⟨a7, h2⟩ := of_named_cons h2
      obtain ⟨a8, h2⟩ := of_named_cons h2
      obtain ⟨a9, h2⟩ := of_named_cons h2
      obtain ⟨a10, h2⟩ := of_named_cons h2
      obtain ⟨a11, h2⟩ := of_named_cons h2
      obtain ⟨a12, h2⟩ := of_named_cons h2
      exact ⟨kvs, h0, _, ⟨a1, g1⟩, _, ⟨a2, g2⟩, _, ⟨a3, g3⟩, _, ⟨a4, g4⟩, _, ⟨a5, g5⟩, _, ⟨a6, g6⟩, _, ⟨a7, g7⟩, _, ⟨a8, g8⟩, _, ⟨a9, g9⟩, _, ⟨a10, g10⟩, _, ⟨a11, g11⟩, _, ⟨a12, g12⟩, rfl⟩
  · intro a cs h1 h3
    cases h1
    obtain ⟨g1, g2, g3, g4, g5, g6, g7, g8, g9, g10, g11, g12⟩ := h3
    exact named_cons (among_self rfl (reads_text _ _ |>.1 g1).1)
      (named_cons (among_self rfl (reads_text _ _ |>.1 g2).1)
      (named_cons (among_self rfl (reads_option reads_user (noNull_object _) _ _ |>.1 g3).1)
      (named_cons (among_self rfl (reads_option reads_text noNull_text _ _ |>.1 g4).1)
      (named_cons (among_self rfl (reads_option reads_text noNull_text _ _ |>.1 g5).1)
      (named_cons (among_self rfl (reads_event _ _ |>.1 g6).1)
      (named_cons (among_self rfl (reads_text _ _ |>.1 g7).1)
      (named_cons (among_self rfl (reads_list reads_badge _ _ |>.1 g8).1)
      (named_cons (among_self rfl (reads_text _ _ |>.1 g9).1)
      (named_cons (among_self rfl (reads_option reads_text noNull_text _ _ |>.1 g10).1)
      (named_cons (among_self rfl (reads_text _ _ |>.1 g11).1)
      (named_cons (among_self rfl (reads_time hc _ _ |>.1 g12).1)
      named_nil)))))))))))

/-! ### Messages -/

theorem read_map {α : Type} {F : Form} {de : Value → Option α} {ser : α → Value} (h : Reads F de ser)
    (f : α → Message) {w : Message → Option Value} (h1 : ∀ a, w (f a) = some (ser a))
    (h2 : ∀ b c, w b = some c → ∃ a, b = f a) (hf : ∀ a a', f a = f a' → a = a') (v : Value) (M : Message) :
    (de v).map f = some M ↔ ∃ c, w M = some c ∧ F v c ∧ (de c).map f = some M := by
  rw [reads_map h f h1 h2 hf v M]

theorem read_exact {tc : TimeCodec} (hc : TimeCodec.Stable tc) (k : Kind) (v : Value) (M : Message) :
    k.read tc v = some M ↔ ∃ c, k.write tc M = some c ∧ k.form tc v c ∧ k.read tc c = some M := by
  cases k with
  | clearChat =>
    exact read_map (reads_clearChat hc) Message.clearChat (w := Kind.write tc .clearChat) (fun _ => rfl)
      (fun b c h => by cases b <;> first | exact ⟨_, rfl⟩ | cases h) (fun a a' h => by cases h; rfl) v M
  | clearMsg =>
    exact read_map (reads_clearMsg hc) Message.clearMsg (w := Kind.write tc .clearMsg) (fun _ => rfl)
      (fun b c h => by cases b <;> first | exact ⟨_, rfl⟩ | cases h) (fun a a' h => by cases h; rfl) v M
  | globalUserState =>
    exact read_map reads_globalUserState Message.globalUserState (w := Kind.write tc .globalUserState) (fun _ => rfl)
      (fun b c h => by cases b <;> first | exact ⟨_, rfl⟩ | cases h) (fun a a' h => by cases h; rfl) v M
  | join =>
    exact read_map reads_join Message.join (w := Kind.write tc .join) (fun _ => rfl)
      (fun b c h => by cases b <;> first | exact ⟨_, rfl⟩ | cases h) (fun a a' h => by cases h; rfl) v M
  | notice =>
    exact read_map reads_notice Message.notice (w := Kind.write tc .notice) (fun _ => rfl)
      (fun b c h => by cases b <;> first | exact ⟨_, rfl⟩ | cases h) (fun a a' h => by cases h; rfl) v M
  | part =>
    exact read_map reads_part Message.part (w := Kind.write tc .part) (fun _ => rfl)
      (fun b c h => by cases b <;> first | exact ⟨_, rfl⟩ | cases h) (fun a a' h => by cases h; rfl) v M
  | ping =>
    exact read_map reads_ping Message.ping (w := Kind.write tc .ping) (fun _ => rfl)
      (fun b c h => by cases b <;> first | exact ⟨_, rfl⟩ | cases h) (fun a a' h => by cases h; rfl) v M
  | pong =>
    exact read_map reads_pong Message.pong (w := Kind.write tc .pong) (fun _ => rfl)
      (fun b c h => by cases b <;> first | exact ⟨_, rfl⟩ | cases h) (fun a a' h => by cases h; rfl) v M
  | privmsg =>
    exact read_map (reads_privmsg hc) Message.privmsg (w := Kind.write tc .privmsg) (fun _ => rfl)
      (fun b c h => by cases b <;> first | exact ⟨_, rfl⟩ | cases h) (fun a a' h => by cases h; rfl) v M
  | roomState =>
    exact read_map reads_roomState Message.roomState (w := Kind.write tc .roomState) (fun _ => rfl)
      (fun b c h => by cases b <;> first | exact ⟨_, rfl⟩ | cases h) (fun a a' h => by cases h; rfl) v M
  | userNotice =>
    exact read_map (reads_userNotice hc) Message.userNotice (w := Kind.write tc .userNotice) (fun _ => rfl)
      (fun b c h => by cases b <;> first | exact ⟨_, rfl⟩ | cases h) (fun a a' h => by cases h; rfl) v M
  | userState =>
    exact read_map reads_userState Message.userState (w := Kind.write tc .userState) (fun _ => rfl)
      (fun b c h => by cases b <;> first | exact ⟨_, rfl⟩ | cases h) (fun a a' h => by cases h; rfl) v M
  | whisper =>
    exact read_map reads_whisper Message.whisper (w := Kind.write tc .whisper) (fun _ => rfl)
      (fun b c h => by cases b <;> first | exact ⟨_, rfl⟩ | cases h) (fun a a' h => by cases h; rfl) v M

theorem form_object (tc : TimeCodec) (k : Kind) : k.form tc = .object (k.fields tc) := by
  cases k <;> rfl

theorem write_map {tc : TimeCodec} {k : Kind} {M : Message} {c : Value} (h : k.write tc M = some c) :
    ∃ cs, c = .map cs := by
  cases k <;> cases M <;> cases h <;> exact ⟨_, rfl⟩

theorem named_mono {fs : List Field} {kvs kvs' : List (Bytes × Value)} :
    (∀ f ∈ fs, ∀ c, f.among kvs c → f.among kvs' c) → ∀ {cs}, named fs kvs cs → named fs kvs' cs := by
  induction fs with
  | nil => intro _ cs h; cases cs <;> exact h
  | cons f fs ih =>
    intro hf cs h
    cases cs with
    | nil => exact h
    | cons c cs =>
      obtain ⟨k, c⟩ := c
      exact ⟨h.1, hf f List.mem_cons_self c h.2.1, ih (fun g hg => hf g (List.mem_cons_of_mem _ hg)) h.2.2⟩

theorem among_of_named {fs : List Field} {kvs : List (Bytes × Value)} {f : Field} :
    f ∈ fs → ∀ {cs}, named fs kvs cs → ∃ c, f.among kvs c := by
  induction fs with
  | nil => intro h; cases h
  | cons g fs ih =>
    intro hf cs h
    cases cs with
    | nil => exact h.elim
    | cons c cs =>
      obtain ⟨k, c⟩ := c
      rcases List.mem_cons.1 hf with rfl | hf
      · exact ⟨c, h.2.1⟩
      · exact ih hf h.2.2

theorem form_named {tc : TimeCodec} {k : Kind} {kvs cs : List (Bytes × Value)} :
    k.form tc (.map kvs) (.map cs) ↔ named (k.fields tc) kvs cs := by
  rw [form_object]
  constructor
  · rintro ⟨cs', h1, ⟨kvs', h2, h3⟩ | ⟨_, h2, _⟩⟩
    · cases h1; cases h2; exact h3
    · cases h2
  · exact fun h => ⟨cs, rfl, .inl ⟨kvs, rfl, h⟩⟩

/-- Two maps in which the fields are written alike are read alike. -/
theorem read_congr {tc : TimeCodec} (hc : TimeCodec.Stable tc) {k : Kind} {kvs kvs' : List (Bytes × Value)}
    (h : ∀ f ∈ k.fields tc, ∀ c, f.among kvs c ↔ f.among kvs' c) : k.read tc (.map kvs) = k.read tc (.map kvs') := by
  apply Option.ext
  intro M
  rw [read_exact hc k (.map kvs), read_exact hc k (.map kvs')]
  constructor
  all_goals
    rintro ⟨c, h1, h2, h3⟩
    obtain ⟨cs, rfl⟩ := write_map h1
    refine ⟨_, h1, form_named.2 (named_mono (fun f hf c => ?_) (form_named.1 h2)), h3⟩
  · exact (h f hf c).1
  · exact (h f hf c).2

/-- Field names are distinct. -/
theorem fields_nodup (tc : TimeCodec) (k : Kind) : ((k.fields tc).map (·.name)).Nodup := by
  cases k
  · exact (show List.Nodup [
      b!"channel", b!"channel_id", b!"action", b!"timestamp"] by decide)
  · exact (show List.Nodup [
      b!"channel", b!"channel_id", b!"sender", b!"target_message_id", b!"text", b!"is_action", b!"timestamp"] by decide)
  · exact (show List.Nodup [
      b!"id", b!"name", b!"badges", b!"emote_sets", b!"color"] by decide)
  · exact (show List.Nodup [
      b!"channel", b!"user"] by decide)
  · exact (show List.Nodup [
      b!"channel", b!"text", b!"id"] by decide)
  · exact (show List.Nodup [
      b!"channel", b!"user"] by decide)
  · exact (show List.Nodup [
      b!"nonce"] by decide)
  · exact (show List.Nodup [
      b!"nonce"] by decide)
  · exact (show List.Nodup [
      b!"channel", b!"channel_id", b!"msg_id", b!"id", b!"sender", b!"reply_to", b!"pinned_chat", b!"text",
      b!"is_action", b!"badges", b!"color", b!"custom_reward_id", b!"bits", b!"emotes", b!"timestamp"] by decide)
  · exact (show List.Nodup [
      b!"channel", b!"channel_id", b!"emote_only", b!"followers_only", b!"r9k", b!"slow", b!"subs_only"] by decide)
  · exact (show List.Nodup [
      b!"channel", b!"channel_id", b!"sender", b!"text", b!"system_message", b!"event", b!"event_id", b!"badges",
      b!"emotes", b!"color", b!"message_id", b!"timestamp"] by decide)
  · exact (show List.Nodup [
      b!"channel", b!"user_name", b!"badges", b!"emote_sets", b!"color"] by decide)
  · exact (show List.Nodup [
      b!"recipient", b!"sender", b!"text", b!"badges", b!"emotes", b!"color"] by decide)

theorem eq_of_name {fs : List Field} (hn : (fs.map (·.name)).Nodup) {f g : Field} (hf : f ∈ fs) (hg : g ∈ fs)
    (h : f.name = g.name) : f = g := by
  induction fs with
  | nil => cases hf
  | cons x fs ih =>
    rw [List.map_cons, List.nodup_cons] at hn
    rcases List.mem_cons.1 hf with e1 | h1 <;> rcases List.mem_cons.1 hg with e2 | h2
    · rw [e1, e2]
    · exact absurd (List.mem_map.2 ⟨g, h2, by rw [← h, e1]⟩) hn.1
    · exact absurd (List.mem_map.2 ⟨f, h1, by rw [h, e2]⟩) hn.1
    · exact ih hn.2 h1 h2

/-- An optional field accepts null, for nothing. -/
def NullField (f : Field) : Prop := f.required = false → ∀ c, f.form .null c ↔ c = .null

theorem nullField_must {name : Bytes} {F : Form} : NullField (must name F) := fun h => nomatch h

theorem nullField_may {name : Bytes} {F : Form} (h : NoNull F) : NullField (may name F) := fun _ c => by
  constructor
  · rintro (h1 | h1)
    · exact h1.2
    · exact absurd h1 (h c).1
  · exact fun h1 => .inl ⟨rfl, h1⟩

theorem nullFields (tc : TimeCodec) (k : Kind) : ∀ f ∈ k.fields tc, NullField f := by
  cases k
  · exact List.forall_mem_cons.2 ⟨nullField_must,
      List.forall_mem_cons.2 ⟨nullField_must,
      List.forall_mem_cons.2 ⟨nullField_must,
      List.forall_mem_cons.2 ⟨nullField_must,
      fun _ h => nomatch h⟩⟩⟩⟩
  · exact List.forall_mem_cons.2 ⟨nullField_must,
      List.forall_mem_cons.2 ⟨nullField_must,
      List.forall_mem_cons.2 ⟨nullField_must,
      List.forall_mem_cons.2 ⟨nullField_must,
      List.forall_mem_cons.2 ⟨nullField_must,
      List.forall_mem_cons.2 ⟨nullField_must,
      List.forall_mem_cons.2 ⟨nullField_must,
      fun _ h => nomatch h⟩⟩⟩⟩⟩⟩⟩
  · exact List.forall_mem_cons.2 ⟨nullField_must,
      List.forall_mem_cons.2 ⟨nullField_must,
      List.forall_mem_cons.2 ⟨nullField_must,
      List.forall_mem_cons.2 ⟨nullField_must,
      List.forall_mem_cons.2 ⟨(nullField_may noNull_text),
      fun _ h => nomatch h⟩⟩⟩⟩⟩
  · exact List.forall_mem_cons.2 ⟨nullField_must,
      List.forall_mem_cons.2 ⟨nullField_must,
      fun _ h => nomatch h⟩⟩
  · exact List.forall_mem_cons.2 ⟨(nullField_may noNull_text),
      List.forall_mem_cons.2 ⟨nullField_must,
      List.forall_mem_cons.2 ⟨(nullField_may noNull_text),
      fun _ h => nomatch h⟩⟩⟩
  · exact List.forall_mem_cons.2 ⟨nullField_must,
      List.forall_mem_cons.2 ⟨nullField_must,
      fun _ h => nomatch h⟩⟩
  · exact List.forall_mem_cons.2 ⟨(nullField_may noNull_text),
      fun _ h => nomatch h⟩
  · exact List.forall_mem_cons.2 ⟨(nullField_may noNull_text),
      fun _ h => nomatch h⟩
  · exact List.forall_mem_cons.2 ⟨nullField_must,
      List.forall_mem_cons.2 ⟨nullField_must,
      List.forall_mem_cons.2 ⟨(nullField_may noNull_text),
      List.forall_mem_cons.2 ⟨nullField_must,
      List.forall_mem_cons.2 ⟨nullField_must,
      List.forall_mem_cons.2 ⟨(nullField_may (noNull_object _)),
      List.forall_mem_cons.2 ⟨(nullField_may (noNull_object _)),
      List.forall_mem_cons.2 ⟨nullField_must,
      List.forall_mem_cons.2 ⟨nullField_must,
      List.forall_mem_cons.2 ⟨nullField_must,
      List.forall_mem_cons.2 ⟨(nullField_may noNull_text),
      List.forall_mem_cons.2 ⟨(nullField_may noNull_text),
      List.forall_mem_cons.2 ⟨(nullField_may noNull_u64),
      List.forall_mem_cons.2 ⟨nullField_must,
      List.forall_mem_cons.2 ⟨nullField_must,
      fun _ h => nomatch h⟩⟩⟩⟩⟩⟩⟩⟩⟩⟩⟩⟩⟩⟩⟩
  · exact List.forall_mem_cons.2 ⟨nullField_must,
      List.forall_mem_cons.2 ⟨nullField_must,
      List.forall_mem_cons.2 ⟨(nullField_may noNull_flag),
      List.forall_mem_cons.2 ⟨(nullField_may (noNull_oneOf _ _)),
      List.forall_mem_cons.2 ⟨(nullField_may noNull_flag),
      List.forall_mem_cons.2 ⟨(nullField_may noNull_duration),
      List.forall_mem_cons.2 ⟨(nullField_may noNull_flag),
      fun _ h => nomatch h⟩⟩⟩⟩⟩⟩⟩
  · exact List.forall_mem_cons.2 ⟨nullField_must,
      List.forall_mem_cons.2 ⟨nullField_must,
      List.forall_mem_cons.2 ⟨(nullField_may (noNull_object _)),
      List.forall_mem_cons.2 ⟨(nullField_may noNull_text),
      List.forall_mem_cons.2 ⟨(nullField_may noNull_text),
      List.forall_mem_cons.2 ⟨nullField_must,
      List.forall_mem_cons.2 ⟨nullField_must,
      List.forall_mem_cons.2 ⟨nullField_must,
      List.forall_mem_cons.2 ⟨nullField_must,
      List.forall_mem_cons.2 ⟨(nullField_may noNull_text),
      List.forall_mem_cons.2 ⟨nullField_must,
      List.forall_mem_cons.2 ⟨nullField_must,
      fun _ h => nomatch h⟩⟩⟩⟩⟩⟩⟩⟩⟩⟩⟩⟩
  · exact List.forall_mem_cons.2 ⟨nullField_must,
      List.forall_mem_cons.2 ⟨nullField_must,
      List.forall_mem_cons.2 ⟨nullField_must,
      List.forall_mem_cons.2 ⟨nullField_must,
      List.forall_mem_cons.2 ⟨(nullField_may noNull_text),
      fun _ h => nomatch h⟩⟩⟩⟩⟩
  · exact List.forall_mem_cons.2 ⟨nullField_must,
      List.forall_mem_cons.2 ⟨nullField_must,
      List.forall_mem_cons.2 ⟨nullField_must,
      List.forall_mem_cons.2 ⟨nullField_must,
      List.forall_mem_cons.2 ⟨nullField_must,
      List.forall_mem_cons.2 ⟨(nullField_may noNull_text),
      fun _ h => nomatch h⟩⟩⟩⟩⟩⟩

end Tmi.Proofs
