/-
Lemmas: the lines that the client sends, read by the line grammar.
-/
import Verif.Proofs.Sending
import Verif.Props.Msg

namespace Tmi.Proofs
open Tmi.Model Tmi.Spec

theorem takeToken_space {c rest : Bytes} (hc : SP ∉ c) : takeToken (c ++ SP :: rest) = (c, rest) := by
  unfold takeToken; rw [cut_append rest hc]

theorem takeToken_end {c : Bytes} (hc : SP ∉ c) : takeToken c = (c, []) := by
  unfold takeToken; rw [cut_none hc]

theorem takePrefix_other {s : Bytes} (h : s.head? ≠ some COLON) : takePrefix s = (none, s) := by
  cases s with
  | nil => rfl
  | cons c r => unfold takePrefix; simp only []; rw [if_neg (by rintro rfl; exact h rfl)]

theorem takeTags_other {s : Bytes} (h : s.head? ≠ some AT) : takeTags s = (none, s) :=
  takeTags_no_at fun r hr => h (by rw [hr]; rfl)

/-- A line without tags and prefix. -/
theorem line_plain {c rest : Bytes} (hc : SP ∉ c) (h0 : c ≠ []) (h1 : c.head? ≠ some AT)
    (h2 : c.head? ≠ some COLON) :
    line (c ++ SP :: rest) = some
      { tags := [], prefix? := none, command := c, channel := (takeChannel rest).1,
        params := if (takeChannel rest).2 = [] then none else some (takeChannel rest).2 } := by
  have hh : (c ++ SP :: rest).head? = c.head? := by cases c with
    | nil => exact absurd rfl h0
    | cons x t => rfl
  unfold line
  rw [takeTags_other (by rw [hh]; exact h1)]
  simp only []
  rw [takePrefix_other (by rw [hh]; exact h2)]
  simp only []
  rw [takeToken_space hc]
  simp only []
  rw [if_neg h0]

/-- A line with tags and without prefix. -/
theorem line_tagged {t c rest : Bytes} (ht : SP ∉ t) (hc : SP ∉ c) (h0 : c ≠ [])
    (h2 : c.head? ≠ some COLON) :
    line (AT :: (t ++ SP :: (c ++ SP :: rest))) = some
      { tags := splitTags t, prefix? := none, command := c, channel := (takeChannel rest).1,
        params := if (takeChannel rest).2 = [] then none else some (takeChannel rest).2 } := by
  have hh : (c ++ SP :: rest).head? = c.head? := by cases c with
    | nil => exact absurd rfl h0
    | cons x t => rfl
  unfold line
  rw [takeTags_space _ ht]
  simp only []
  rw [takePrefix_other (by rw [hh]; exact h2)]
  simp only []
  rw [takeToken_space hc]
  simp only []
  rw [if_neg h0]

theorem takeChannel_space {c rest : Bytes} (h : c.head? = some HASH) (hc : SP ∉ c) :
    takeChannel (c ++ SP :: rest) = (some c, rest) := by
  cases c with
  | nil => simp at h
  | cons x t =>
    simp at h; subst h
    unfold takeChannel
    rw [List.cons_append]
    simp only [if_true]
    rw [← List.cons_append, takeToken_space hc]

theorem takeChannel_end {c : Bytes} (h : c.head? = some HASH) (hc : SP ∉ c) :
    takeChannel c = (some c, []) := by
  cases c with
  | nil => simp at h
  | cons x t =>
    simp at h; subst h
    unfold takeChannel
    simp only [if_true]
    rw [takeToken_end hc]

theorem takeChannel_other {s : Bytes} (h : s.head? ≠ some HASH) : takeChannel s = (none, s) := by
  cases s with
  | nil => rfl
  | cons c r => unfold takeChannel; simp only []; rw [if_neg (by rintro rfl; exact h rfl)]

theorem textOf_colon (t : Bytes) : textOf (COLON :: t) = t := by
  unfold textOf
  rw [show COLON :: t = [] ++ COLON :: t from rfl, cut_append t (by simp)]

theorem line_params_utf8 {s : Bytes} (hu : Utf8 s) {l : Line} (hl : line s = some l) {p : Bytes}
    (hp : l.params = some p) : Utf8 p := by
  obtain ⟨t, -, _, h | h⟩ := line_rebuild hl
  · rw [hp] at h
    simp only [] at h
    rw [h, ← List.append_assoc, List.append_assoc _ [SP] p] at hu
    exact Utf8.right (x := SP) (by decide) hu
  · rw [hp] at h; simp at h

theorem line_text_utf8 {s : Bytes} (hu : Utf8 s) {l : Line} (hl : line s = some l) {n : Bytes}
    (hn : l.text = some n) : Utf8 n := by
  unfold Line.text at hn
  cases hp : l.params with
  | none => rw [hp] at hn; simp at hn
  | some p =>
    have hup := line_params_utf8 hu hl hp
    rw [hp] at hn
    simp only [Option.map_some, Option.some.injEq] at hn
    subst hn
    unfold textOf
    cases hc : cut COLON p with
    | none => exact hup
    | some ab =>
      obtain ⟨a, b⟩ := ab
      have := (cut_eq_some hc).1
      rw [this] at hup
      exact Utf8.right (x := COLON) (by decide) hup

/-- Parsing a line whose reading is known. -/
theorem parse_line {b : Build} {s : Bytes} {l : Line} (hl : line s = some l) (hu : Utf8 s)
    (hw : Within s) (ht : TagsTerminated b s) :
    ∃ m, MsgRef.parse b s = .ok (some m) ∧ m.src = s ∧ Represents m l := by
  have h := parse_refines b hu hw ht
  rw [hl] at h
  obtain ⟨m, h1, h2, _, h4⟩ := h
  exact ⟨m, h1, h2, h4⟩

theorem within_plain {s : Bytes} (h : s.head? ≠ some AT) (hl : s.length < 4294967296) : Within s := by
  have : tagPairs s = [] := by unfold tagPairs; rw [takeTags_other h]
  exact ⟨hl, by rw [this]; simp, by rw [this]; simp⟩

theorem terminated_plain {b : Build} {s : Bytes} (h : s.head? ≠ some AT) : TagsTerminated b s := by
  intro _ r hr
  exact absurd (by rw [hr]; rfl) h

/-- The tags that `privmsg` sends. -/
def sentTags (reply nonce : Option Bytes) : List (Bytes × Bytes) :=
  (reply.map fun v => (b!"reply-parent-msg-id", v)).toList ++ (nonce.map fun v => (b!"client-nonce", v)).toList

theorem privmsg_shape (ch text : Bytes) (r n : Option Bytes) :
    commandLine (.privmsg ch text r n) =
      if sentTags r n = [] then b!"PRIVMSG" ++ SP :: (ch ++ SP :: (COLON :: text))
      else AT :: (renderTags (sentTags r n) ++ SP :: (b!"PRIVMSG" ++ SP :: (ch ++ SP :: (COLON :: text)))) := by
  cases r <;> cases n <;> simp [commandLine, sentTags, renderTags]

theorem sentTags_mem {r n : Option Bytes} {p : Bytes × Bytes} (h : p ∈ sentTags r n) :
    (p.1 = b!"reply-parent-msg-id" ∧ r = some p.2) ∨ (p.1 = b!"client-nonce" ∧ n = some p.2) := by
  cases r <;> cases n <;> simp [sentTags] at h
  · subst h; simp
  · subst h; simp
  · rcases h with rfl | rfl <;> simp

/-- The pieces of the line of a chat message. -/
theorem privmsg_line {ch text : Bytes} {reply nonce : Option Bytes} (hch : ch.head? = some HASH) (hsp : SP ∉ ch)
    (hv : ∀ v, reply = some v ∨ nonce = some v → SEMI ∉ v ∧ SP ∉ v) :
    line (commandLine (.privmsg ch text reply nonce)) = some
      { tags := sentTags reply nonce, prefix? := none, command := b!"PRIVMSG", channel := some ch,
        params := some (COLON :: text) } := by
  rw [privmsg_shape]
  split
  · rename_i h
    rw [line_plain (by decide) (by decide) (by decide) (by decide), takeChannel_space hch hsp, h]
    rfl
  · rw [line_tagged ?_ (by decide) (by decide) (by decide), takeChannel_space hch hsp, splitTags_render]
    · rfl
    · intro p hp
      rcases sentTags_mem hp with ⟨h, h'⟩ | ⟨h, h'⟩
      · exact ⟨by rw [h]; decide, (hv _ (.inl h')).1⟩
      · exact ⟨by rw [h]; decide, (hv _ (.inr h')).1⟩
    · apply renderTags_no_space
      intro p hp
      rcases sentTags_mem hp with ⟨h, h'⟩ | ⟨h, h'⟩
      · exact ⟨by rw [h]; decide, (hv _ (.inl h')).2⟩
      · exact ⟨by rw [h]; decide, (hv _ (.inr h')).2⟩

/-- The line of a chat message: its pieces, and that parsing handles it. -/
theorem privmsg_reads {b : Build} {ch text : Bytes} {reply nonce : Option Bytes}
    (hch : ch.head? = some HASH) (hsp : SP ∉ ch) (huc : Utf8 ch) (hut : Utf8 text)
    (hv : ∀ v, reply = some v ∨ nonce = some v → Utf8 v ∧ SEMI ∉ v ∧ SP ∉ v ∧ v.length < 65536)
    (hlen : (commandLine (.privmsg ch text reply nonce)).length < 4294967296) :
    line (commandLine (.privmsg ch text reply nonce)) = some
      { tags := sentTags reply nonce, prefix? := none, command := b!"PRIVMSG", channel := some ch,
        params := some (COLON :: text) } ∧
    Readable b (commandLine (.privmsg ch text reply nonce)) := by
  have hl := privmsg_line (text := text) hch hsp fun v h => ⟨(hv v h).2.1, (hv v h).2.2.1⟩
  have hbody : Utf8 (b!"PRIVMSG" ++ SP :: (ch ++ SP :: (COLON :: text))) :=
    (Utf8.of_ascii (by decide)).append (.cons (by decide) (huc.append (.cons (by decide) (.cons (by decide) hut))))
  have hu : Utf8 (commandLine (.privmsg ch text reply nonce)) := by
    rw [privmsg_shape]
    split
    · exact hbody
    · refine .cons (by decide) ((renderTags_utf8 _ ?_).append (.cons (by decide) hbody))
      intro p hp
      rcases sentTags_mem hp with ⟨h, h'⟩ | ⟨h, h'⟩
      · exact ⟨by rw [h]; exact .of_ascii (by decide), (hv _ (.inl h')).1⟩
      · exact ⟨by rw [h]; exact .of_ascii (by decide), (hv _ (.inr h')).1⟩
  have htp : ∀ s l, line s = some l → tagPairs s = l.tags := by
    intro s l h
    unfold line at h
    unfold tagPairs
    simp only [] at h
    split at h
    · simp at h
    · simp only [Option.some.injEq] at h
      rw [← h]
  have hwi : Within (commandLine (.privmsg ch text reply nonce)) := by
    refine ⟨hlen, ?_, ?_⟩
    · rw [htp _ _ hl]
      cases reply <;> cases nonce <;> simp [sentTags]
    · rw [htp _ _ hl]
      intro p hp
      rcases sentTags_mem hp with ⟨h, h'⟩ | ⟨h, h'⟩
      · exact ⟨by rw [h]; decide, (hv _ (.inl h')).2.2.2⟩
      · exact ⟨by rw [h]; decide, (hv _ (.inr h')).2.2.2⟩
  have ht : TagsTerminated b (commandLine (.privmsg ch text reply nonce)) := by
    intro _ r hr
    rw [privmsg_shape] at hr
    split at hr
    · simp at hr
      exact absurd hr.1 (by decide)
    · simp only [List.cons.injEq, true_and] at hr
      rw [← hr]; simp
  exact ⟨hl, hu, hwi, ht⟩

end Tmi.Proofs
