/-
Printed messages: which trees they have, and which bytes their texts have.
-/
import Verif.Proofs.DebugTyped
import Verif.Proofs.Strings
import Verif.Props.Serde

namespace Tmi.Proofs
open Model Spec

/-! ### Trees of messages -/

theorem shaped_raw {name : Bytes} (hn : Word name) {m : MsgRef} {d : Dbg} (h : m.dbg name = .ok d) : Dbg.Shaped d := by
  obtain ⟨_, _, h⟩ := bind_ok h
  obtain ⟨_, _, h⟩ := bind_ok h
  obtain ⟨_, _, h⟩ := bind_ok h
  obtain ⟨_, _, h⟩ := bind_ok h
  obtain ⟨_, _, h⟩ := bind_ok h
  injection h with h
  subst h
  refine shaped_struct hn (fields_cons (by decide) (shaped_list (fun kv => ?_) _)
    (fields_cons (by decide) (shaped_opt shaped_prefix _) (fields_cons (by decide) (shaped_command _)
    (fields_cons (by decide) (shaped_opt shaped_str _) (fields_cons (by decide) (shaped_opt shaped_str _) fields_nil)))))
  exact shaped_tuple (by decide) (list_cons (shaped_str _) (list_cons (shaped_str _) list_nil))

theorem raw_dbg {name : Bytes} {m m' : MsgRef} {d : Dbg} (h : m.dbg name = .ok d) (h' : m'.dbg name = .ok d) :
    SameView m m' := by
  obtain ⟨t, ht, h⟩ := bind_ok h
  obtain ⟨p, hp, h⟩ := bind_ok h
  obtain ⟨c, hc, h⟩ := bind_ok h
  obtain ⟨ch, hch, h⟩ := bind_ok h
  obtain ⟨ps, hps, h⟩ := bind_ok h
  obtain ⟨t', ht', h'⟩ := bind_ok h'
  obtain ⟨p', hp', h'⟩ := bind_ok h'
  obtain ⟨c', hc', h'⟩ := bind_ok h'
  obtain ⟨ch', hch', h'⟩ := bind_ok h'
  obtain ⟨ps', hps', h'⟩ := bind_ok h'
  injection h with h
  injection h' with h'
  rw [← h'] at h
  simp only [Dbg.struct, Items.ofFields, Dbg.node.injEq, Items.cons.injEq, true_and, and_true] at h
  obtain ⟨h1, h2, h3, h4, h5⟩ := h
  have e1 := (list_dbg (fun a b => by simp [Dbg.tuple, Items.ofList, Prod.ext_iff]) t t').1 h1
  have e2 := (opt_dbg prefix_dbg p p').1 h2
  have e3 := (command_dbg c c').1 h3
  have e4 := (optStr_dbg ch ch').1 h4
  have e5 := (optStr_dbg ps ps').1 h5
  exact ⟨by rw [ht, ht', e1], by rw [hp, hp', e2], by rw [hc, hc', e3], by rw [hch, hch', e4], by rw [hps, hps', e5]⟩

theorem raw_dbg_same {name : Bytes} {m m' : MsgRef} (h : SameView m m') : m.dbg name = m'.dbg name := by
  unfold MsgRef.dbg
  rw [h.tags, h.prefix?, h.command, h.channel, h.params]

theorem shaped_message {M : Message} {d : Dbg} (h : M.dbg = .ok d) : Dbg.Shaped d := by
  cases M <;> first
    | (obtain ⟨t, ht, h⟩ := bind_ok h
       injection h with h
       subst h
       exact shaped_tuple (by decide) (list_cons (shaped_raw (by decide) ht) list_nil))
    | (unfold Message.dbg at h
       injection h with h
       subst h
       first
         | exact shaped_atom (by decide)
         | (refine shaped_tuple (by decide) (list_cons ?_ list_nil)
            with_reducible first
              | exact shaped_clearChat _ | exact shaped_clearMsg _ | exact shaped_globalUserState _ | exact shaped_join _
              | exact shaped_notice _ | exact shaped_part _ | exact shaped_ping _ | exact shaped_pong _
              | exact shaped_privmsg _ | exact shaped_roomState _ | exact shaped_userNotice _ | exact shaped_userState _
              | exact shaped_whisper _))

theorem valid_wrap {name : Bytes} {d : Dbg} (h : Valid d) : Valid (.tuple name [d]) := by
  intro s hs
  simp only [Dbg.tuple, Items.ofList, Dbg.strings, Items.strings, List.append_nil] at hs
  exact h s hs

theorem valid_fromIrc {m : MsgRef} (hs : Utf8 m.src) {M : Message} (h : Message.fromIrc m = .ok (some M)) {d : Dbg}
    (hd : M.dbg = .ok d) : Valid d := by
  obtain ⟨c, hc, h⟩ := bind_ok h
  have other : some (Message.other m) = some M → Valid d := by
    intro e
    injection e with e
    subst e
    obtain ⟨t, ht, hd⟩ := bind_ok hd
    injection hd with hd
    subst hd
    exact valid_wrap (valid_raw hs ht)
  cases c <;> first
    | (injection h with h; exact other h)
    | (injection h with h
       injection h with h
       subst h
       injection hd with hd
       subst hd
       intro s hs'
       simp [Dbg.strings] at hs')
    | (obtain ⟨v, hv, rfl⟩ := Props.into_some h
       injection hd with hd
       subst hd
       refine valid_wrap ?_
       with_reducible first
         | exact clearChat_valid hs hv | exact clearMsg_valid hs hv | exact globalUserState_valid hs hv
         | exact join_valid hs hv | exact notice_valid hs hv | exact part_valid hs hv | exact ping_valid hs hv
         | exact pong_valid hs hv | exact privmsg_valid hs hv | exact roomState_valid hs hv
         | exact userNotice_valid hs hv | exact userState_valid hs hv | exact whisper_valid hs hv)

theorem tuple_one {n n' : Bytes} {a b : Dbg} (h : Dbg.tuple n [a] = .tuple n' [b]) : n = n' ∧ a = b := by
  simp only [Dbg.tuple, Items.ofList, Dbg.node.injEq, Items.cons.injEq, Kind.tuple.injEq, true_and, and_true] at h
  exact h

theorem atom_tuple {t n : Bytes} {l : List Dbg} (h : Dbg.atom t = .tuple n l) : False := by
  simp [Dbg.tuple] at h

/-- The tree of a message says which message it is. -/
theorem message_dbg {M M' : Message} {d : Dbg} (h : M.dbg = .ok d) (h' : M'.dbg = .ok d) :
    M = M' ∨ ∃ m m', M = .other m ∧ M' = .other m' ∧ SameView m m' := by
  have hother : ∀ (m : MsgRef) {d : Dbg}, (Message.other m).dbg = .ok d →
      ∃ t, m.debug = .ok t ∧ d = .tuple (b!"Other") [t] := by
    intro m d h
    obtain ⟨t, ht, h⟩ := bind_ok h
    injection h with h
    exact ⟨t, ht, h.symm⟩
  cases M with
  | other m =>
    obtain ⟨t, ht, rfl⟩ := hother m h
    cases M' with
    | other m' =>
      obtain ⟨t', ht', e⟩ := hother m' h'
      simp only [Dbg.tuple, Items.ofList, Dbg.node.injEq, Items.cons.injEq, true_and, and_true] at e
      subst e
      exact .inr ⟨m, m', rfl, rfl, raw_dbg ht ht'⟩
    | _ =>
      injection h' with h'
      simp [Dbg.tuple] at h'
  | _ =>
    injection h with h
    subst h
    left
    cases M' with
    | other m' =>
      obtain ⟨t', ht', e⟩ := hother m' h'
      simp [Dbg.tuple] at e
    | _ =>
      injection h' with h'
      first
        | rfl
        | exact (atom_tuple h').elim
        | exact (atom_tuple h'.symm).elim
        | (refine absurd (tuple_one h').1 ?_; decide)
        | (congr 1
           with_reducible first
             | exact ((clearChat_dbg _ _).1 (tuple_one h').2.symm) | exact ((clearMsg_dbg _ _).1 (tuple_one h').2.symm)
             | exact ((globalUserState_dbg _ _).1 (tuple_one h').2.symm) | exact ((join_dbg _ _).1 (tuple_one h').2.symm)
             | exact ((notice_dbg _ _).1 (tuple_one h').2.symm) | exact ((part_dbg _ _).1 (tuple_one h').2.symm)
             | exact ((ping_dbg _ _).1 (tuple_one h').2.symm) | exact ((pong_dbg _ _).1 (tuple_one h').2.symm)
             | exact ((privmsg_dbg _ _).1 (tuple_one h').2.symm) | exact ((roomState_dbg _ _).1 (tuple_one h').2.symm)
             | exact ((userNotice_dbg _ _).1 (tuple_one h').2.symm) | exact ((userState_dbg _ _).1 (tuple_one h').2.symm)
             | exact ((whisper_dbg _ _).1 (tuple_one h').2.symm))

theorem text_inj (esc : Nat → Bool) (alt : Bool) {d d' : Dbg} (h : Dbg.Good d) (h' : Dbg.Good d')
    (e : d.text esc alt = d'.text esc alt) : d = d' := by
  cases alt
  · exact (compact_inj esc d d' [] [] h h' .nil .nil (by simpa [Dbg.text] using e)).1
  · exact (pretty_inj esc d d' [] [] h h' .nil .nil (by simpa [Dbg.text] using e)).1

/-! ### Bytes of texts -/

/-- Not an ASCII control character. -/
def plainByte (x : UInt8) : Bool := decide (0x20 ≤ x) && x != 0x7F

def Plain (s : Bytes) : Prop := ∀ x ∈ s, plainByte x = true

instance (s : Bytes) : Decidable (Plain s) := inferInstanceAs (Decidable (∀ x ∈ s, plainByte x = true))

theorem Plain.append {a b : Bytes} (ha : Plain a) (hb : Plain b) : Plain (a ++ b) := by
  intro x hx
  rcases List.mem_append.1 hx with h | h
  · exact ha x h
  · exact hb x h

theorem word_plain {s : Bytes} (h : Word s) : Plain s := by
  have key : ∀ n : Fin 256, wordByte (UInt8.ofFin n) = true → plainByte (UInt8.ofFin n) = true := by decide +kernel
  intro x hx
  exact key x.toFin (h x hx)

theorem hex_plain (n : Nat) : Plain (hex n) := by
  have key : ∀ n : Fin 256, 0x30 ≤ (UInt8.ofFin n) → (UInt8.ofFin n) ≤ 0x66 → plainByte (UInt8.ofFin n) = true := by
    decide +kernel
  intro x hx
  obtain ⟨h1, h2⟩ := (hex_spec n).1 x hx
  exact key x.toFin h1 h2

theorem debugChar_plain (esc : Nat → Bool) (c : Char) : Plain (debugChar esc c) := by
  unfold debugChar
  dsimp only
  by_cases h0 : c.val.toNat = 0
  · rw [if_pos h0]; decide
  rw [if_neg h0]
  by_cases h1 : c.val.toNat = 9
  · rw [if_pos h1]; decide
  rw [if_neg h1]
  by_cases h2 : c.val.toNat = 13
  · rw [if_pos h2]; decide
  rw [if_neg h2]
  by_cases h3 : c.val.toNat = 10
  · rw [if_pos h3]; decide
  rw [if_neg h3]
  by_cases h4 : c.val.toNat = 34
  · rw [if_pos h4]; decide
  rw [if_neg h4]
  by_cases h5 : c.val.toNat = 92
  · rw [if_pos h5]; decide
  rw [if_neg h5]
  by_cases h6 : c.val.toNat < 32 ∨ c.val.toNat = 127 ∨ (128 ≤ c.val.toNat ∧ esc c.val.toNat)
  · rw [if_pos h6]
    exact .append (.append (by decide) (hex_plain _)) (by decide)
  · rw [if_neg h6]
    intro x hx
    by_cases hlt : x < 0x80
    · have hm := (ascii_mem_enc (x := x) hlt (cs := [c])).1 (by simpa [enc] using hx)
      rw [List.mem_singleton] at hm
      have h128 : x.toNat < 128 := by simpa [u8_lt_iff] using hlt
      have hval : c.val.toNat = x.toNat := by
        rw [← hm]
        have : x.toNat.isValidChar := by left; omega
        simp [Char.ofNat, this, Char.ofNatAux]
      rw [hval] at h6
      unfold plainByte
      rw [Bool.and_eq_true, decide_eq_true_eq, bne_iff_ne, u8_le_iff]
      refine ⟨?_, ?_⟩
      · show 32 ≤ x.toNat
        omega
      · rintro rfl
        exact h6 (.inr (.inl rfl))
    · have hge : 128 ≤ x.toNat := by
        rw [u8_lt_iff] at hlt
        have : (0x80 : UInt8).toNat = 128 := rfl
        omega
      unfold plainByte
      rw [Bool.and_eq_true, decide_eq_true_eq, bne_iff_ne, u8_le_iff]
      refine ⟨?_, ?_⟩
      · show 32 ≤ x.toNat
        omega
      · rintro rfl
        exact absurd hge (by decide)

theorem flatMap_plain (esc : Nat → Bool) : ∀ cs : List Char, Plain (cs.flatMap (debugChar esc))
  | [] => by intro x hx; simp at hx
  | c :: cs => by
    rw [List.flatMap_cons]
    exact .append (debugChar_plain esc c) (flatMap_plain esc cs)

theorem debugStr_plain (esc : Nat → Bool) (s : Bytes) : Plain (debugStr esc s) :=
  .append (.append (a := [0x22]) (by decide) (flatMap_plain esc _)) (by decide)

theorem label_plain {named : Bool} {l : Bytes} (h : if named then Label l else l = []) : Plain (labelText l) := by
  cases named
  · simp only [Bool.false_eq_true, if_false] at h
    subst h
    decide
  · simp only [if_true] at h
    unfold labelText
    rw [if_neg h.1]
    refine .append (word_plain fun x hx => ?_) (by decide)
    have := h.2 x hx
    unfold labelByte at this
    rw [Bool.and_eq_true] at this
    exact this.1

mutual
theorem compact_plain (esc : Nat → Bool) : ∀ d : Dbg, Dbg.Shaped d → Plain (d.compact esc)
  | .atom t, h => by rw [Dbg.compact]; exact word_plain h.2
  | .str s, _ => by rw [Dbg.compact]; exact debugStr_plain esc s
  | .node (.struct name more) .nil, h => absurd rfl h.2.2.1
  | .node (.struct name more) (.cons l v rest), h => by
    obtain rfl := h.2.1
    rw [Dbg.compact]
    exact .append (.append (.append (.append (.append (word_plain h.1) (by decide)) (label_plain h.2.2.2.1))
      (compact_plain esc v h.2.2.2.2.1)) (items_plain esc true rest h.2.2.2.2.2)) (by decide)
  | .node (.tuple name) .nil, h => absurd rfl h.2.1
  | .node (.tuple name) (.cons l v rest), h => by
    rw [Dbg.compact]
    exact .append (.append (.append (.append (.append (word_plain h.1) (by decide)) (label_plain h.2.2.1))
      (compact_plain esc v h.2.2.2.1)) (items_plain esc false rest h.2.2.2.2)) (by decide)
  | .node .list .nil, _ => by rw [Dbg.compact]; decide
  | .node .list (.cons l v rest), h => by
    rw [Dbg.compact]
    exact .append (.append (.append (.append (by decide) (label_plain h.1))
      (compact_plain esc v h.2.1)) (items_plain esc false rest h.2.2)) (by decide)
theorem items_plain (esc : Nat → Bool) (named : Bool) : ∀ i : Items, Items.Shaped named i → Plain (i.compact esc)
  | .nil, _ => by rw [Items.compact]; decide
  | .cons l v rest, h => by
    rw [Items.compact]
    exact .append (.append (.append (by decide) (label_plain h.1)) (compact_plain esc v h.2.1)) (items_plain esc named rest h.2.2)
end

/-- Plain, but for the ends of lines. -/
def PlainLines (s : Bytes) : Prop := ∀ x ∈ s, x = 0x0A ∨ plainByte x = true

instance (s : Bytes) : Decidable (PlainLines s) := inferInstanceAs (Decidable (∀ x ∈ s, x = 0x0A ∨ plainByte x = true))

theorem PlainLines.append {a b : Bytes} (ha : PlainLines a) (hb : PlainLines b) : PlainLines (a ++ b) := by
  intro x hx
  rcases List.mem_append.1 hx with h | h
  · exact ha x h
  · exact hb x h

theorem Plain.lines {a : Bytes} (h : Plain a) : PlainLines a := fun x hx => .inr (h x hx)

theorem pad_lines : ∀ (nl : Bool) (a : Bytes), PlainLines a → PlainLines (pad nl a)
  | _, [], _ => by intro x hx; simp [pad] at hx
  | nl, c :: t, h => by
    rw [pad]
    refine .append ?_ ?_
    · cases nl <;> decide
    · intro x hx
      rcases List.mem_cons.1 hx with rfl | hx
      · exact h x (by simp)
      · exact pad_lines _ t (fun y hy => h y (by simp [hy])) x hx

mutual
theorem pretty_lines (esc : Nat → Bool) : ∀ d : Dbg, Dbg.Shaped d → PlainLines (d.pretty esc)
  | .atom t, h => by rw [Dbg.pretty]; exact (word_plain h.2).lines
  | .str s, _ => by rw [Dbg.pretty]; exact (debugStr_plain esc s).lines
  | .node (.struct name more) .nil, h => absurd rfl h.2.2.1
  | .node (.struct name more) (.cons l v rest), h => by
    obtain rfl := h.2.1
    rw [Dbg.pretty]
    exact .append (.append (.append (.append (word_plain h.1).lines (by decide)) (pad_lines _ _ (.append (.append
      (label_plain h.2.2.2.1).lines (pretty_lines esc v h.2.2.2.2.1)) (by decide))))
      (itemsP_lines esc true rest h.2.2.2.2.2)) (by decide)
  | .node (.tuple name) .nil, h => absurd rfl h.2.1
  | .node (.tuple name) (.cons l v rest), h => by
    rw [Dbg.pretty]
    exact .append (.append (.append (.append (word_plain h.1).lines (by decide)) (pad_lines _ _ (.append (.append
      (label_plain h.2.2.1).lines (pretty_lines esc v h.2.2.2.1)) (by decide))))
      (itemsP_lines esc false rest h.2.2.2.2)) (by decide)
  | .node .list .nil, _ => by rw [Dbg.pretty]; decide
  | .node .list (.cons l v rest), h => by
    rw [Dbg.pretty]
    exact .append (.append (.append (by decide) (pad_lines _ _ (.append (.append
      (label_plain h.1).lines (pretty_lines esc v h.2.1)) (by decide))))
      (itemsP_lines esc false rest h.2.2)) (by decide)
theorem itemsP_lines (esc : Nat → Bool) (named : Bool) : ∀ i : Items, Items.Shaped named i → PlainLines (i.pretty esc)
  | .nil, _ => by rw [Items.pretty]; decide
  | .cons l v rest, h => by
    rw [Items.pretty]
    exact .append (pad_lines _ _ (.append (.append
      (label_plain h.1).lines (pretty_lines esc v h.2.1)) (by decide))) (itemsP_lines esc named rest h.2.2)
end

end Tmi.Proofs
