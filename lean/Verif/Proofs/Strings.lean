/-
The strings of a message whose line is valid UTF-8 are valid UTF-8.
-/
import Verif.Proofs.DebugTyped
import Verif.Proofs.Parsed
import Verif.Proofs.Sizes
import Verif.Proofs.Words

namespace Tmi.Proofs
open Model Spec

/-! ### Slices -/

theorem enc_cont (c : Char) {i : Nat} (h0 : 0 < i) (h1 : i < (String.utf8EncodeChar c).length) (r : Bytes) :
    isCharBoundary (String.utf8EncodeChar c ++ r) i = false := by
  rcases enc_cases c with ⟨x, _, e⟩ | ⟨x, t, e, _, ht⟩
  · rw [e] at h1
    simp at h1
    omega
  · obtain ⟨i, rfl⟩ : ∃ j, i = j + 1 := ⟨i - 1, by omega⟩
    rw [e] at h1 ⊢
    unfold isCharBoundary
    simp only []
    rw [List.getElem?_append_left h1, List.getElem?_eq_getElem h1]
    have hm := ht ((x :: t)[i + 1]) (by simp)
    simp only [isCont, Bool.not_eq_false', Bool.and_eq_true, decide_eq_true_eq]
    exact hm

theorem utf8_cut : ∀ (cs : List Char) (i : Nat), isCharBoundary (enc cs) i = true →
    Utf8 ((enc cs).take i) ∧ Utf8 ((enc cs).drop i)
  | _, 0, _ => ⟨⟨[], by simp⟩, by rw [List.drop_zero]; exact Utf8.of_enc _⟩
  | [], i + 1, _ => by simp [enc, Utf8.nil]
  | c :: cs, i + 1, h => by
    have e : enc (c :: cs) = String.utf8EncodeChar c ++ enc cs := rfl
    rw [e] at h ⊢
    by_cases hl : i + 1 < (String.utf8EncodeChar c).length
    · rw [enc_cont c (by omega) hl] at h
      cases h
    · obtain ⟨j, hj⟩ : ∃ j, i + 1 = (String.utf8EncodeChar c).length + j := ⟨_, (Nat.add_sub_cancel' (by omega)).symm⟩
      rw [hj] at h ⊢
      rw [boundary_past (Utf8.of_enc cs)] at h
      obtain ⟨h1, h2⟩ := utf8_cut cs j h
      rw [List.take_length_add_append, List.drop_length_add_append]
      exact ⟨Utf8.append ⟨[c], by simp⟩ h1, h2⟩

theorem utf8_take {s : Bytes} (hs : Utf8 s) {i : Nat} (h : isCharBoundary s i = true) : Utf8 (s.take i) := by
  obtain ⟨cs, rfl⟩ := hs
  exact (utf8_cut cs i h).1

theorem utf8_drop {s : Bytes} (hs : Utf8 s) {i : Nat} (h : isCharBoundary s i = true) : Utf8 (s.drop i) := by
  obtain ⟨cs, rfl⟩ := hs
  exact (utf8_cut cs i h).2

theorem strFrom_utf8 {s r : Bytes} (hs : Utf8 s) {i : Nat} (h : strFrom s i = .ok r) : Utf8 r := by
  unfold strFrom at h
  split at h
  · next hb => cases h; exact utf8_drop hs hb
  · cases h

theorem strSlice_utf8 {s r : Bytes} (hs : Utf8 s) {i j : Nat} (h : strSlice s i j = .ok r) : Utf8 r := by
  unfold strSlice at h
  split at h
  · next hb =>
    cases h
    simp only [Bool.and_eq_true, decide_eq_true_eq] at hb
    obtain ⟨⟨hij, hi⟩, hj⟩ := hb
    have hd := utf8_drop hs hi
    refine utf8_take hd ?_
    have hil : i ≤ s.length := by
      cases i with
      | zero => omega
      | succ i =>
        unfold isCharBoundary at hi
        simp only [] at hi
        by_cases hl : i + 1 < s.length
        · omega
        · rw [List.getElem?_eq_none (by omega)] at hi
          simp at hi
          omega
    have e : (s.take i ++ s.drop i) = s := List.take_append_drop i s
    have := boundary_past (A := s.take i) hd (j - i)
    rw [e, List.length_take, Nat.min_eq_left hil, show i + (j - i) = j by omega] at this
    rw [← this]
    exact hj
  · cases h

/-! ### Splitting -/

theorem cut_utf8 {x : UInt8} (hx : x < 0x80) {s a b : Bytes} (hs : Utf8 s) (h : cut x s = some (a, b)) :
    Utf8 a ∧ Utf8 b := by
  obtain ⟨rfl, _⟩ := cut_eq_some h
  exact Utf8.split hx hs

theorem splitOn_utf8 {x : UInt8} (hx : x < 0x80) : ∀ (n : Nat) (s : Bytes), s.length ≤ n → Utf8 s →
    ∀ p ∈ splitOn x s, Utf8 p := by
  intro n
  induction n with
  | zero =>
    intro s hs _ p hp
    rw [List.length_eq_zero_iff.1 (Nat.le_zero.1 hs)] at hp
    simp only [splitOn, List.mem_singleton] at hp
    rw [hp]
    exact .nil
  | succ n ih =>
    intro s hs hu p hp
    by_cases hm : x ∈ s
    · obtain ⟨a, b, rfl, ha⟩ := mem_split hm
      rw [splitOn_some b ha] at hp
      rcases List.mem_cons.1 hp with rfl | hp
      · exact Utf8.left hx hu
      · exact ih b (by simp at hs; omega) (Utf8.right hx hu) p hp
    · rw [splitOn_none hm, List.mem_singleton] at hp
      rw [hp]
      exact hu

/-! ### Accessors -/

/-- A string that may be absent. -/
def OptUtf8 (o : Option Bytes) : Prop := ∀ s, o = some s → Utf8 s

theorem bind_ok {α β : Type} {x : R α} {f : α → R β} {v : β} (h : (x >>= f) = .ok v) :
    ∃ a, x = .ok a ∧ f a = .ok v := by
  cases x with
  | error e => cases h
  | ok a => exact ⟨a, rfl, h⟩

theorem span_utf8 {src : Bytes} (hs : Utf8 src) {sp : Span} {r : Bytes} (h : sp.get src = .ok r) : Utf8 r :=
  strSlice_utf8 hs h

theorem optSlice_utf8 {src : Bytes} (hs : Utf8 src) {o : Option Span} {r : Option Bytes}
    (h : optSlice src o = .ok r) : OptUtf8 r := by
  cases o with
  | none => cases h; intro s hs; cases hs
  | some sp =>
    obtain ⟨a, ha, h'⟩ := bind_ok h
    cases h'
    intro s e
    cases e
    exact span_utf8 hs ha

theorem tag_utf8 {m : MsgRef} (hs : Utf8 m.src) {t : Tag} {r : Option Bytes} (h : m.tag t = .ok r) : OptUtf8 r := by
  obtain ⟨o, _, h⟩ := bind_ok h
  cases o with
  | none => cases h; intro s hs; cases hs
  | some p =>
    obtain ⟨sp, _, h⟩ := bind_ok h
    obtain ⟨a, ha, h⟩ := bind_ok h
    cases h
    intro s e
    cases e
    exact span_utf8 hs ha

theorem tags_utf8 {m : MsgRef} (hs : Utf8 m.src) {l : List (Bytes × Bytes)} (h : m.tags = .ok l) :
    ∀ p ∈ l, Utf8 p.1 ∧ Utf8 p.2 := by
  unfold MsgRef.tags at h
  have key : ∀ (ps : List TagPair) (l : List (Bytes × Bytes)),
      ps.mapM (fun p => TagPair.get m.checks m.src p) = .ok l → ∀ p ∈ l, Utf8 p.1 ∧ Utf8 p.2 := by
    intro ps
    induction ps with
    | nil => intro l h; rw [List.mapM_nil] at h; cases h; simp
    | cons q ps ih =>
      intro l h
      rw [List.mapM_cons] at h
      obtain ⟨kv, hkv, h⟩ := bind_ok h
      obtain ⟨l', hl', h⟩ := bind_ok h
      cases h
      intro p hp
      rcases List.mem_cons.1 hp with rfl | hp
      · unfold TagPair.get at hkv
        obtain ⟨_, _, hkv⟩ := bind_ok hkv
        obtain ⟨_, h1, hkv⟩ := bind_ok hkv
        obtain ⟨_, _, hkv⟩ := bind_ok hkv
        obtain ⟨_, h2, hkv⟩ := bind_ok hkv
        cases hkv
        exact ⟨span_utf8 hs h1, span_utf8 hs h2⟩
      · exact ih l' hl' p hp
  exact key _ _ h

theorem prefix_utf8 {m : MsgRef} (hs : Utf8 m.src) {o : Option Prefix} (h : m.prefix? = .ok o) :
    ∀ p, o = some p → OptUtf8 p.nick ∧ OptUtf8 p.user ∧ Utf8 p.host := by
  unfold MsgRef.prefix? at h
  intro p hp
  subst hp
  split at h
  · cases h
  · obtain ⟨q, hq, h⟩ := bind_ok h
    cases h
    obtain ⟨_, h1, hq⟩ := bind_ok hq
    obtain ⟨_, h2, hq⟩ := bind_ok hq
    obtain ⟨_, h3, hq⟩ := bind_ok hq
    cases hq
    exact ⟨optSlice_utf8 hs h1, optSlice_utf8 hs h2, span_utf8 hs h3⟩

theorem nick_utf8 {m : MsgRef} (hs : Utf8 m.src) {r : Option Bytes} (h : nickOf? m = .ok r) : OptUtf8 r := by
  obtain ⟨o, ho, h⟩ := bind_ok h
  cases h
  intro s e
  cases o with
  | none => cases e
  | some p => exact (prefix_utf8 hs ho p rfl).1 s e

theorem command_utf8 {m : MsgRef} (hs : Utf8 m.src) {c : Bytes} (h : m.command = .ok (.other c)) : Utf8 c := by
  unfold MsgRef.command at h
  cases hc : m.parts.command with
  | other sp =>
    rw [hc] at h
    obtain ⟨a, ha, h⟩ := bind_ok h
    cases h
    exact span_utf8 hs ha
  | _ => rw [hc] at h; cases h

theorem params_utf8 {m : MsgRef} (hs : Utf8 m.src) {r : Option Bytes} (h : m.params = .ok r) : OptUtf8 r :=
  optSlice_utf8 hs h

theorem words_utf8 {p : Bytes} (hp : Utf8 p) : ∀ w ∈ splitWhitespace p, Utf8 w := by
  obtain ⟨cs, rfl⟩ := hp
  have e := splitWhitespace_eq cs
  unfold enc at e
  rw [e]
  intro w hw
  obtain ⟨v, _, rfl⟩ := List.mem_map.1 hw
  exact Utf8.of_enc v

theorem word_utf8 {m : MsgRef} (hs : Utf8 m.src) {o : Option Bytes} (h : m.params = .ok o) (i : Nat) :
    OptUtf8 (o.bind fun p => (splitWhitespace p)[i]?) := by
  intro s e
  cases o with
  | none => cases e
  | some p => exact words_utf8 (params_utf8 hs h p rfl) s (List.mem_of_getElem? e)

theorem channel_utf8 {m : MsgRef} (hs : Utf8 m.src) {r : Option Bytes} (h : m.channel = .ok r) : OptUtf8 r := by
  obtain ⟨c, _, h⟩ := bind_ok h
  split at h
  · obtain ⟨o, ho, h⟩ := bind_ok h
    cases h
    exact word_utf8 hs ho 2
  · obtain ⟨o, ho, h⟩ := bind_ok h
    cases h
    exact word_utf8 hs ho 1
  · exact optSlice_utf8 hs h

theorem text_utf8 {m : MsgRef} (hs : Utf8 m.src) {r : Option Bytes} (h : m.text = .ok r) : OptUtf8 r := by
  unfold MsgRef.text at h
  split at h
  · obtain ⟨p, hp, h⟩ := bind_ok h
    have hup := span_utf8 hs hp
    split at h
    · obtain ⟨a, ha, h⟩ := bind_ok h
      cases h
      intro s e
      cases e
      exact strFrom_utf8 hup ha
    · cases h
      intro s e
      cases e
      exact hup
  · cases h
    intro s e
    cases e

/-! ### Parts of typed messages -/

theorem nonEmpty_utf8 {o : Option Bytes} (h : OptUtf8 o) : OptUtf8 (nonEmpty o) := by
  intro s e
  unfold nonEmpty at e
  exact h s (Option.filter_eq_some_iff.1 e).1

theorem getD_utf8 {o : Option Bytes} (h : OptUtf8 o) {d : Bytes} (hd : Utf8 d) : Utf8 (o.getD d) := by
  cases o with
  | none => exact hd
  | some s => exact h s rfl

theorem messageText_utf8 {s : Bytes} (hs : Utf8 s) : Utf8 (parseMessageText s).1 := by
  unfold parseMessageText
  split
  · exact hs
  · rename_i t ht
    rw [stripPrefix_iff] at ht
    split
    · exact hs
    · rename_i u hu
      rw [stripSuffix_iff] at hu
      subst hu
      subst ht
      have h1 : Utf8 (0x20 :: (u ++ [0x01])) := by
        have : (0x01 :: b!"ACTION ") ++ (u ++ [0x01]) = (0x01 :: b!"ACTION") ++ 0x20 :: (u ++ [0x01]) := by simp
        rw [this] at hs
        exact .cons (by decide) (Utf8.right (by decide) hs)
      exact Utf8.left (x := 0x01) (b := []) (by decide) (Utf8.tail (by decide) h1)

theorem splitComma_utf8 {o : Option Bytes} (h : OptUtf8 o) : ∀ s ∈ (o.map splitComma).getD [], Utf8 s := by
  cases o with
  | none => intro s hs; simp at hs
  | some t => exact splitOn_utf8 (by decide) _ t (Nat.le_refl _) (h t rfl)

/-- The strings of a badge. -/
def BadgeUtf8 : Badge → Prop
  | .subscriber v => Utf8 v.version ∧ Utf8 v.months
  | .other v => Utf8 v.name ∧ Utf8 v.version ∧ OptUtf8 v.extra
  | _ => True

theorem toBadge_utf8 {d : BadgeData} (h1 : Utf8 d.name) (h2 : Utf8 d.version) (h3 : OptUtf8 d.extra) :
    BadgeUtf8 d.toBadge := by
  unfold BadgeData.toBadge
  repeat' split
  all_goals first
    | exact trivial
    | exact ⟨h2, getD_utf8 h3 (Utf8.of_ascii (by decide))⟩
    | exact ⟨h1, h2, h3⟩

theorem pairs_utf8 {s : Bytes} (hs : Utf8 s) : ∀ p ∈ (splitOn COMMA s).filterMap (splitOnce SLASH), Utf8 p.1 ∧ Utf8 p.2 := by
  intro p hp
  obtain ⟨t, ht, h⟩ := List.mem_filterMap.1 hp
  rw [splitOnce_eq] at h
  exact cut_utf8 (by decide) (splitOn_utf8 (by decide) _ s (Nat.le_refl _) hs t ht) h

theorem badges_utf8 {m : MsgRef} (hs : Utf8 m.src) {l : List Badge} (h : Model.badgesOf m = .ok l) :
    ∀ b ∈ l, BadgeUtf8 b := by
  obtain ⟨o, ho, h⟩ := bind_ok h
  obtain ⟨i, hi, h⟩ := bind_ok h
  cases o with
  | none => cases h; simp
  | some a =>
    cases i with
    | none => cases h; simp
    | some i =>
      cases h
      have ha := tag_utf8 hs ho a rfl
      have hi := tag_utf8 hs hi i rfl
      intro b hb
      unfold parseBadges at hb
      split at hb
      · cases hb
      · obtain ⟨nv, hnv, rfl⟩ := List.mem_map.1 hb
        have := pairs_utf8 ha nv hnv
        refine toBadge_utf8 this.1 this.2 ?_
        intro s e
        simp only [Option.map_eq_some_iff] at e
        obtain ⟨q, hq, rfl⟩ := e
        exact (pairs_utf8 hi q (List.mem_of_find?_eq_some hq)).2

/-! ### Trees -/

/-- All strings of a tree are valid. -/
def Valid (d : Dbg) : Prop := ∀ s ∈ d.strings, Utf8 s

def ValidFields : List (Bytes × Dbg) → Prop
  | [] => True
  | p :: t => Valid p.2 ∧ ValidFields t

def ValidList : List Dbg → Prop
  | [] => True
  | v :: t => Valid v ∧ ValidList t

theorem valid_fields_items : ∀ l : List (Bytes × Dbg), ValidFields l → ∀ s ∈ (Items.ofFields l).strings, Utf8 s
  | [], _, s, h => by simp [Items.ofFields, Items.strings] at h
  | (_, v) :: t, h, s, hs => by
    rw [Items.ofFields, Items.strings] at hs
    rcases List.mem_append.1 hs with hs | hs
    · exact h.1 s hs
    · exact valid_fields_items t h.2 s hs

theorem valid_list_items : ∀ l : List Dbg, ValidList l → ∀ s ∈ (Items.ofList l).strings, Utf8 s
  | [], _, s, h => by simp [Items.ofList, Items.strings] at h
  | v :: t, h, s, hs => by
    rw [Items.ofList, Items.strings] at hs
    rcases List.mem_append.1 hs with hs | hs
    · exact h.1 s hs
    · exact valid_list_items t h.2 s hs

theorem validf_nil : ValidFields [] := trivial
theorem validf_cons {l : Bytes} {v : Dbg} {t : List (Bytes × Dbg)} (h : Valid v) (ht : ValidFields t) :
    ValidFields ((l, v) :: t) := ⟨h, ht⟩
theorem validl_nil : ValidList [] := trivial
theorem validl_cons {v : Dbg} {t : List Dbg} (h : Valid v) (ht : ValidList t) : ValidList (v :: t) := ⟨h, ht⟩

theorem valid_struct {name : Bytes} {l : List (Bytes × Dbg)} (h : ValidFields l) : Valid (.struct name l) := by
  intro s hs
  unfold Dbg.struct at hs
  rw [Dbg.strings] at hs
  exact valid_fields_items l h s hs

theorem valid_tuple {name : Bytes} {l : List Dbg} (h : ValidList l) : Valid (.tuple name l) := by
  intro s hs
  unfold Dbg.tuple at hs
  rw [Dbg.strings] at hs
  exact valid_list_items l h s hs

theorem valid_str {s : Bytes} (h : Utf8 s) : Valid (.str s) := by
  intro t ht
  rw [Dbg.strings, List.mem_singleton] at ht
  rw [ht]
  exact h

theorem valid_atom (t : Bytes) : Valid (.atom t) := by
  intro s hs
  rw [Dbg.strings] at hs
  cases hs

theorem valid_bool (v : Bool) : Valid (dbgBool v) := valid_atom _
theorem valid_nat (v : Nat) : Valid (dbgNat v) := valid_atom _
theorem valid_int (v : Int) : Valid (dbgInt v) := valid_atom _
theorem valid_duration (v : Nat) : Valid (dbgDuration v) := valid_atom _
theorem valid_time (v : Timestamp) : Valid (dbgTime v) := valid_atom _

theorem valid_opt {α : Type} {f : α → Dbg} {o : Option α} (h : ∀ a, o = some a → Valid (f a)) : Valid (dbgOpt f o) := by
  cases o with
  | none => exact valid_atom _
  | some a => exact valid_tuple ⟨h a rfl, trivial⟩

theorem valid_optNat (o : Option Nat) : Valid (dbgOpt dbgNat o) := valid_opt fun a _ => valid_nat a
theorem valid_optDuration (o : Option Nat) : Valid (dbgOpt dbgDuration o) := valid_opt fun a _ => valid_duration a
theorem valid_optBool (o : Option Bool) : Valid (dbgOpt dbgBool o) := valid_opt fun a _ => valid_bool a
theorem valid_optStr {o : Option Bytes} (h : OptUtf8 o) : Valid (dbgOpt .str o) := valid_opt fun a e => valid_str (h a e)

theorem valid_list {α : Type} {f : α → Dbg} {l : List α} (h : ∀ a ∈ l, Valid (f a)) : Valid (dbgList f l) := by
  intro s hs
  unfold dbgList Dbg.list at hs
  rw [Dbg.strings] at hs
  refine valid_list_items _ ?_ s hs
  clear hs s
  induction l with
  | nil => exact trivial
  | cons a t ih => exact ⟨h a List.mem_cons_self, ih fun b hb => h b (List.mem_cons_of_mem _ hb)⟩

theorem valid_badge {b : Badge} (h : BadgeUtf8 b) : Valid b.dbg := by
  match b, h with
  | .staff, _ | .turbo, _ | .broadcaster, _ | .moderator, _ => exact valid_atom _
  | .subscriber v, h =>
    exact valid_tuple ⟨valid_struct ⟨valid_str h.1, valid_str h.2, valid_nat _, trivial⟩, trivial⟩
  | .other v, h =>
    exact valid_tuple ⟨valid_struct ⟨valid_str h.1, valid_str h.2.1, valid_optStr h.2.2, trivial⟩, trivial⟩

theorem valid_badges {l : List Badge} (h : ∀ b ∈ l, BadgeUtf8 b) : Valid (dbgList Badge.dbg l) :=
  valid_list fun b hb => valid_badge (h b hb)

theorem valid_user {u : User} (h1 : Utf8 u.id) (h2 : Utf8 u.login) (h3 : Utf8 u.name) : Valid u.dbg :=
  valid_struct ⟨valid_str h1, valid_str h2, valid_str h3, trivial⟩

theorem valid_prefix {p : Prefix} (h : OptUtf8 p.nick ∧ OptUtf8 p.user ∧ Utf8 p.host) : Valid p.dbg :=
  valid_struct ⟨valid_optStr h.1, valid_optStr h.2.1, valid_str h.2.2, trivial⟩

theorem valid_command {c : Command} (h : ∀ s, c = .other s → Utf8 s) : Valid c.dbg := by
  cases c with
  | other s => exact valid_tuple ⟨valid_str (h s rfl), trivial⟩
  | _ => exact valid_atom _

theorem valid_raw {m : MsgRef} (hs : Utf8 m.src) {name : Bytes} {d : Dbg} (h : m.dbg name = .ok d) : Valid d := by
  unfold MsgRef.dbg at h
  obtain ⟨tags, h1, h⟩ := bind_ok h
  obtain ⟨pfx, h2, h⟩ := bind_ok h
  obtain ⟨cmd, h3, h⟩ := bind_ok h
  obtain ⟨ch, h4, h⟩ := bind_ok h
  obtain ⟨ps, h5, h⟩ := bind_ok h
  cases h
  refine valid_struct ⟨?_, ?_, ?_, ?_, ?_, trivial⟩
  · exact valid_list fun p hp => valid_tuple ⟨valid_str (tags_utf8 hs h1 p hp).1, valid_str (tags_utf8 hs h1 p hp).2, trivial⟩
  · exact valid_opt fun p hp => valid_prefix (prefix_utf8 hs h2 p hp)
  · exact valid_command fun c e => command_utf8 hs (by rw [h3, e])
  · exact valid_optStr (channel_utf8 hs h4)
  · exact valid_optStr (params_utf8 hs h5)

/-! ### Typed messages -/

theorem some_utf8 {s : Bytes} (h : OptUtf8 (some s)) : Utf8 s := h s rfl

/-- The strings of the tree come from accessors. -/
macro "valid" hs:ident : tactic => `(tactic| with_reducible repeat' first
  | exact some_utf8 (tag_utf8 $hs (by assumption))
  | exact tag_utf8 $hs (by assumption)
  | exact some_utf8 (text_utf8 $hs (by assumption))
  | exact text_utf8 $hs (by assumption)
  | exact some_utf8 (channel_utf8 $hs (by assumption))
  | exact channel_utf8 $hs (by assumption)
  | exact some_utf8 (nick_utf8 $hs (by assumption))
  | exact messageText_utf8 (some_utf8 (text_utf8 $hs (by assumption)))
  | exact nonEmpty_utf8 (tag_utf8 $hs (by assumption))
  | exact getD_utf8 (tag_utf8 $hs (by assumption)) Utf8.nil
  | exact valid_badges (badges_utf8 $hs (by assumption))
  | exact valid_list fun _ h => valid_str (splitComma_utf8 (tag_utf8 $hs (by assumption)) _ h)
  | assumption
  | exact validf_nil
  | exact validl_nil
  | exact valid_atom _
  | exact valid_bool _
  | exact valid_nat _
  | exact valid_int _
  | exact valid_duration _
  | exact valid_time _
  | exact valid_optNat _
  | exact valid_optDuration _
  | exact valid_optBool _
  | apply validf_cons
  | apply validl_cons
  | apply valid_struct
  | apply valid_tuple
  | apply valid_str
  | apply valid_optStr
  | apply valid_user)

theorem clearChat_valid {m : MsgRef} (hs : Utf8 m.src) {v : ClearChat} (h : ClearChat.parse m = .ok (some v)) :
    Valid v.dbg := by
  simp only [ClearChat.parse, ok_bind, ok_guard, ok_get] at h
  obtain ⟨_, _, _, c, hc, i, hi, text, ht, dur, hd, h⟩ := h
  simp only [ok_req] at hc hi
  cases text with
  | none =>
    simp only [ok_bind, ok_pure, ok_some, ok_req] at h
    obtain ⟨_, rfl, _, _, _, _, rfl⟩ := h
    simp only [ClearChat.dbg, Action.dbg]
    valid hs
  | some t =>
    cases hd : dur.bind parseDuration with
    | none =>
      simp only [hd, ok_bind, ok_pure, ok_some, ok_req] at h
      obtain ⟨_, _, _, rfl, _, _, _, ht, rfl⟩ := h
      simp only [ClearChat.dbg, Action.dbg]
      valid hs
    | some d =>
      simp only [hd, ok_bind, ok_pure, ok_some, ok_req] at h
      obtain ⟨_, _, _, rfl, _, _, _, ht, rfl⟩ := h
      simp only [ClearChat.dbg, Action.dbg]
      valid hs

theorem clearMsg_valid {m : MsgRef} (hs : Utf8 m.src) {v : ClearMsg} (h : ClearMsg.parse m = .ok (some v)) :
    Valid v.dbg := by
  simp only [ClearMsg.parse, ok_bind, ok_guard, ok_get, ok_pure, ok_some, ok_req] at h
  obtain ⟨_, _, _, _, _, _, _, _, _, _, _, _, _, _, _, _, ht, rfl⟩ := h
  simp only [ClearMsg.dbg]
  valid hs

theorem globalUserState_valid {m : MsgRef} (hs : Utf8 m.src) {v : GlobalUserState}
    (h : GlobalUserState.parse m = .ok (some v)) : Valid v.dbg := by
  simp only [GlobalUserState.parse, ok_bind, ok_guard, ok_get, ok_pure, ok_some, ok_req] at h
  obtain ⟨_, _, _, _, _, _, _, _, hb, _, _, _, _, rfl⟩ := h
  simp only [GlobalUserState.dbg]
  valid hs

theorem join_valid {m : MsgRef} (hs : Utf8 m.src) {v : Join} (h : Join.parse m = .ok (some v)) : Valid v.dbg := by
  simp only [Join.parse, ok_bind, ok_guard, ok_get, ok_pure, ok_some, ok_req] at h
  obtain ⟨_, _, _, _, _, _, _, rfl⟩ := h
  simp only [Join.dbg]
  valid hs

theorem part_valid {m : MsgRef} (hs : Utf8 m.src) {v : Part} (h : Part.parse m = .ok (some v)) : Valid v.dbg := by
  simp only [Part.parse, ok_bind, ok_guard, ok_get, ok_pure, ok_some, ok_req] at h
  obtain ⟨_, _, _, _, _, _, _, rfl⟩ := h
  simp only [Part.dbg]
  valid hs

theorem notice_valid {m : MsgRef} (hs : Utf8 m.src) {v : Notice} (h : Notice.parse m = .ok (some v)) : Valid v.dbg := by
  simp only [Notice.parse, ok_bind, ok_guard, ok_get, ok_pure, ok_some, ok_req] at h
  obtain ⟨_, _, _, _, _, _, _, _, _, rfl⟩ := h
  simp only [Notice.dbg]
  valid hs

theorem ping_valid {m : MsgRef} (hs : Utf8 m.src) {v : Ping} (h : Ping.parse m = .ok (some v)) : Valid v.dbg := by
  simp only [Ping.parse, ok_bind, ok_guard, ok_get, ok_pure, ok_some, ok_req] at h
  obtain ⟨_, _, _, _, _, rfl⟩ := h
  simp only [Ping.dbg]
  valid hs

theorem pong_valid {m : MsgRef} (hs : Utf8 m.src) {v : Pong} (h : Pong.parse m = .ok (some v)) : Valid v.dbg := by
  simp only [Pong.parse, ok_bind, ok_guard, ok_get, ok_pure, ok_some, ok_req] at h
  obtain ⟨_, _, _, _, _, rfl⟩ := h
  simp only [Pong.dbg]
  valid hs

theorem reply_valid {m : MsgRef} (hs : Utf8 m.src) {v : Reply} (h : parseReply m = .ok (some v)) : Valid v.dbg := by
  simp only [parseReply, ok_bind, ok_get, ok_pure, ok_some, ok_req] at h
  obtain ⟨_, _, _, _, _, _, _, _, _, _, _, _, _, _, rfl⟩ := h
  simp only [Reply.dbg]
  valid hs

theorem pinned_valid {m : MsgRef} (hs : Utf8 m.src) {v : PinnedChat} (h : parsePinned m = .ok (some v)) : Valid v.dbg := by
  simp only [parsePinned, ok_bind, ok_get, ok_pure, ok_some, ok_req] at h
  obtain ⟨_, _, _, h1, _, _, _, _, _, h2, _, _, _, _, _, _, rfl⟩ := h
  simp only [PinnedChat.dbg]
  valid hs

theorem privmsg_valid {m : MsgRef} (hs : Utf8 m.src) {v : Privmsg} (h : Privmsg.parse m = .ok (some v)) :
    Valid v.dbg := by
  simp only [Privmsg.parse, ok_bind, ok_guard, ok_get, ok_pure, ok_some, ok_req] at h
  obtain ⟨_, _, _, _, _, _, _, _, _, _, _, _, _, _, _, _, _, _, _, r, hr, p, hp, _, hb, _, _, _, _, _,
    _, _, _, _, _, _, ht, rfl⟩ := h
  have h1 : Valid (dbgOpt Reply.dbg r) := valid_opt fun a e => reply_valid hs (e ▸ hr)
  have h2 : Valid (dbgOpt PinnedChat.dbg p) := valid_opt fun a e => pinned_valid hs (e ▸ hp)
  simp only [Privmsg.dbg]
  valid hs

theorem followers_valid (o : Option FollowersOnly) : Valid (dbgOpt FollowersOnly.dbg o) :=
  valid_opt fun a _ => by
    cases a with
    | disabled => exact valid_atom _
    | enabled d => exact valid_tuple ⟨valid_optDuration d, trivial⟩

theorem roomState_valid {m : MsgRef} (hs : Utf8 m.src) {v : RoomState} (h : RoomState.parse m = .ok (some v)) :
    Valid v.dbg := by
  simp only [RoomState.parse, ok_bind, ok_guard, ok_get, ok_pure, ok_some, ok_req] at h
  obtain ⟨_, _, _, _, _, _, _, _, _, f, hf, _, _, _, _, _, _, rfl⟩ := h
  have := followers_valid f
  simp only [RoomState.dbg]
  valid hs

theorem userState_valid {m : MsgRef} (hs : Utf8 m.src) {v : UserState}
    (h : UserState.parse m = .ok (some v)) : Valid v.dbg := by
  simp only [UserState.parse, ok_bind, ok_guard, ok_get, ok_pure, ok_some, ok_req] at h
  obtain ⟨_, _, _, _, _, _, _, _, hb, _, _, _, _, rfl⟩ := h
  simp only [UserState.dbg]
  valid hs

theorem whisper_valid {m : MsgRef} (hs : Utf8 m.src) {v : Whisper}
    (h : Whisper.parse m = .ok (some v)) : Valid v.dbg := by
  simp only [Whisper.parse, ok_bind, ok_guard, ok_get, ok_pure, ok_some, ok_req] at h
  obtain ⟨_, _, _, p, hp, ⟨a, t⟩, hsp, _, _, _, _, _, _, _, _, _, hb, _, _, rfl⟩ := h
  have hu := params_utf8 hs hp p rfl
  rw [splitOnce2_iff] at hsp
  obtain ⟨rfl, _⟩ := hsp
  have h1 : Utf8 a := Utf8.left (by decide) hu
  have h2 : Utf8 t := Utf8.tail (by decide) (Utf8.right (by decide) hu)
  simp only [Whisper.dbg]
  valid hs

theorem promotion_valid {m : MsgRef} (hs : Utf8 m.src) {p : Option SubGiftPromo} (h : parsePromotion m = .ok p) :
    Valid (dbgOpt SubGiftPromo.dbg p) := by
  obtain ⟨_, _, h⟩ := bind_ok h
  obtain ⟨_, h2, h⟩ := bind_ok h
  refine valid_opt fun v e => ?_
  subst e
  split at h
  · cases h
    exact valid_struct ⟨valid_nat _, valid_str (tag_utf8 hs h2 _ rfl), trivial⟩
  · cases h

theorem event_valid {m : MsgRef} (hs : Utf8 m.src) {e : Bytes} {s : Option Bytes} {ev : Event} {anon : Bool}
    (h : (parseEvent m e s).run = .ok (some (ev, anon))) : Valid ev.dbg := by
  unfold parseEvent at h
  by_cases h1 : e = b!"sub" ∨ e = b!"resub"
  · rw [if_pos h1] at h
    simp only [ok_bind, ok_get, ok_pure, ok_some, ok_req] at h
    obtain ⟨_, hc, s, _, _, _, _, _, h⟩ := h
    cases h
    simp only [Event.dbg]
    valid hs
  rw [if_neg h1] at h
  by_cases h1 : e = b!"raid"
  · rw [if_pos h1] at h
    simp only [ok_bind, ok_get, ok_pure, ok_some, ok_req] at h
    obtain ⟨_, hc, _, _, h⟩ := h
    cases h
    simp only [Event.dbg]
    valid hs
  rw [if_neg h1] at h
  by_cases h1 : e = b!"subgift" ∨ e = b!"anonsubgift"
  · rw [if_pos h1] at h
    simp only [ok_bind, ok_get, ok_pure, ok_some, ok_req] at h
    obtain ⟨_, hc, _, _, _, _, _, _, _, _, _, _, _, hg, h⟩ := h
    cases h
    simp only [Event.dbg]
    valid hs
  rw [if_neg h1] at h
  by_cases h1 : e = b!"anonsubmysterygift"
  · rw [if_pos h1] at h
    simp only [ok_bind, ok_get, ok_pure, ok_some, ok_req] at h
    obtain ⟨_, hc, _, _, h⟩ := h
    cases h
    simp only [Event.dbg]
    valid hs
  rw [if_neg h1] at h
  by_cases h1 : e = b!"submysterygift" ∧ s = anAnonymousGifter
  · rw [if_pos h1] at h
    simp only [ok_bind, ok_get, ok_pure, ok_some, ok_req] at h
    obtain ⟨_, hc, _, _, h⟩ := h
    cases h
    simp only [Event.dbg]
    valid hs
  rw [if_neg h1] at h
  by_cases h1 : e = b!"submysterygift"
  · rw [if_pos h1] at h
    simp only [ok_bind, ok_get, ok_pure, ok_some, ok_req] at h
    obtain ⟨_, hc, _, hg, _, _, h⟩ := h
    cases h
    simp only [Event.dbg]
    valid hs
  rw [if_neg h1] at h
  by_cases h1 : e = b!"giftpaidupgrade"
  · rw [if_pos h1] at h
    simp only [ok_bind, ok_get, ok_pure, ok_some, ok_req] at h
    obtain ⟨_, _, _, _, _, hp, h⟩ := h
    cases h
    have := promotion_valid hs hp
    simp only [Event.dbg]
    valid hs
  rw [if_neg h1] at h
  by_cases h1 : e = b!"anongiftpaidupgrade"
  · rw [if_pos h1] at h
    simp only [ok_bind, ok_get, ok_pure, ok_some, ok_req] at h
    obtain ⟨_, hp, h⟩ := h
    cases h
    have := promotion_valid hs hp
    simp only [Event.dbg]
    valid hs
  rw [if_neg h1] at h
  by_cases h1 : e = b!"ritual"
  · rw [if_pos h1] at h
    simp only [ok_bind, ok_get, ok_pure, ok_some, ok_req] at h
    obtain ⟨_, _, h⟩ := h
    cases h
    simp only [Event.dbg]
    valid hs
  rw [if_neg h1] at h
  by_cases h1 : e = b!"bitsbadgetier"
  · rw [if_pos h1] at h
    simp only [ok_bind, ok_get, ok_pure, ok_some, ok_req] at h
    obtain ⟨_, hc, h⟩ := h
    cases h
    simp only [Event.dbg]
    valid hs
  rw [if_neg h1] at h
  by_cases h1 : e = b!"announcement"
  · rw [if_pos h1] at h
    simp only [ok_bind, ok_get, ok_pure, ok_some, ok_req] at h
    obtain ⟨_, hc, h⟩ := h
    cases h
    have := getD_utf8 (tag_utf8 hs hc) (d := b!"PRIMARY") (Utf8.of_ascii (by decide))
    simp only [Event.dbg]
    valid hs
  rw [if_neg h1] at h
  simp only [ok_pure] at h
  cases h
  exact valid_atom _

theorem sender_valid {m : MsgRef} (hs : Utf8 m.src) {a : Bool} {o : Option User}
    (h : (senderOf m a).run = .ok (some o)) : Valid (dbgOpt User.dbg o) := by
  unfold senderOf at h
  split at h
  · simp only [ok_bind, ok_req, ok_pure] at h
    obtain ⟨_, _, _, _, _, _, rfl⟩ := h
    refine valid_opt fun u e => ?_
    cases e
    valid hs
  · simp only [ok_pure] at h
    subst h
    exact valid_atom _

theorem userNotice_valid {m : MsgRef} (hs : Utf8 m.src) {v : UserNotice} (h : UserNotice.parse m = .ok (some v)) :
    Valid v.dbg := by
  simp only [UserNotice.parse, ok_bind, ok_guard, ok_get, ok_pure, ok_some, ok_req] at h
  obtain ⟨_, _, _, _, _, _, _, ⟨ev, an⟩, he, sn, hsn, _, _, _, _, _, _, _, _, _, hb, _, _, _, _, _, _, _, _, _, _, rfl⟩ := h
  have h1 := event_valid hs he
  have h2 := sender_valid hs hsn
  simp only [UserNotice.dbg]
  valid hs

end Tmi.Proofs
