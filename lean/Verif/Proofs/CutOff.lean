/-
Lemmas: lines that end too early.
-/
import Verif.Spec.CutOff
import Verif.Proofs.Serve
import Verif.Proofs.Lines

namespace Tmi.Proofs
open Tmi.Model Tmi.Spec

/-- The beginnings of two texts, one after the other. -/
theorem prefix_append {c x y : Bytes} (h : c <+: x ++ y) : c <+: x ∨ ∃ z, c = x ++ z ∧ z <+: y := by
  rcases Nat.le_total c.length x.length with hl | hl
  · exact .inl (List.prefix_of_prefix_length_le h (List.prefix_append _ _) hl)
  · obtain ⟨z, rfl⟩ := List.prefix_of_prefix_length_le (List.prefix_append x y) h hl
    exact .inr ⟨z, rfl, (List.prefix_append_right_inj x).1 h⟩

theorem prefix_cons {c y : Bytes} {x : UInt8} (h : c <+: x :: y) : c = [] ∨ ∃ z, c = x :: z ∧ z <+: y := by
  cases c with
  | nil => exact .inl rfl
  | cons a z =>
    rw [List.cons_prefix_cons] at h
    exact .inr ⟨z, by rw [h.1], h.2⟩

theorem prefix_space {c x y : Bytes} (h : c <+: x ++ SP :: y) : c <+: x ∨ ∃ z, c = x ++ SP :: z ∧ z <+: y := by
  rcases prefix_append h with h | ⟨z, rfl, hz⟩
  · exact .inl h
  · rcases prefix_cons hz with rfl | ⟨z, rfl, hz'⟩
    · exact .inl (by simp)
    · exact .inr ⟨z, rfl, hz'⟩

theorem prefix_no {c x : Bytes} {a : UInt8} (h : c <+: x) (ha : a ∉ x) : a ∉ c := fun hm => ha (h.subset hm)

/-! ### The bytes that have arrived -/

theorem lineBytes_cons (l : Bytes) (ls : List Bytes) : lineBytes (l :: ls) = l ++ [CR, LF] ++ lineBytes ls := by
  simp [lineBytes]

/-- However much of the lines has arrived: some whole lines and the beginning of the next. -/
theorem arrivedOf_exists : ∀ (ls : List Bytes) (wire : Bytes), wire <+: lineBytes ls →
    ∃ whole rest, ArrivedOf ls whole rest wire
  | [], wire, h => ⟨[], [], by simpa [lineBytes] using h, List.prefix_refl _, .inl rfl⟩
  | l :: ls, wire, h => by
    rw [lineBytes_cons] at h
    rcases prefix_append h with h | ⟨z, rfl, hz⟩
    · have h' : wire <+: (l ++ [CR]) ++ [LF] := by simpa using h
      rcases prefix_append h' with h' | ⟨z, rfl, hz⟩
      · exact ⟨[], wire, rfl, List.nil_prefix, .inr ⟨l, rfl, h'⟩⟩
      · rcases prefix_cons hz with rfl | ⟨z, rfl, hz'⟩
        · exact ⟨[], _, rfl, List.nil_prefix, .inr ⟨l, rfl, by simp⟩⟩
        · obtain rfl := List.prefix_nil.1 hz'
          exact ⟨[l], [], by simp [lineBytes], by simp, .inl rfl⟩
    · obtain ⟨whole, rest, h1, h2, h3⟩ := arrivedOf_exists ls z hz
      refine ⟨l :: whole, rest, ?_, ?_, ?_⟩
      · rw [h1, lineBytes_cons]; simp
      · exact List.cons_prefix_cons.2 ⟨rfl, h2⟩
      · simpa using h3

theorem lineBytes_delivered : ∀ (ls : List Bytes) (rest : Bytes), (∀ l ∈ ls, LF ∉ l ∧ Utf8 l) → LF ∉ rest →
    delivered (lineBytes ls ++ rest) = ls.map .ok ∧ unterminated (lineBytes ls ++ rest) = rest
  | [], rest, _, h => by
    simp [lineBytes, delivered, receivedLines, unterminated, fields_none h]
  | l :: ls, rest, hl, h => by
    obtain ⟨h1, h2⟩ := hl l (by simp)
    have e : lineBytes (l :: ls) ++ rest = (l ++ [CR]) ++ LF :: (lineBytes ls ++ rest) := by
      rw [lineBytes_cons]; simp
    have hl' : LF ∉ l ++ [CR] := by simp; exact ⟨h1, by decide⟩
    have ih := lineBytes_delivered ls rest (fun l hl' => hl l (by simp [hl'])) h
    rw [e, (delivered_line _ hl').1, (delivered_line _ hl').2, ih.1, ih.2, stripCR_crlf]
    simp [deliver, h2]

/-! ### Beginnings of a line -/

/-- A line of which only (a part of) the first token is there. -/
theorem line_token {c : Bytes} (hs : SP ∉ c) (h0 : c ≠ []) : line c = some ⟨[], none, c, none, none⟩ := by
  have ht : takeTags c = (none, c) := by
    by_cases h : c.head? = some AT
    · cases c with
      | nil => simp at h
      | cons x r =>
        simp only [List.head?_cons, Option.some.injEq] at h
        subst h
        exact takeTags_no_space fun h => hs (by simp [h])
    · exact takeTags_other h
  have hp : takePrefix c = (none, c) := by
    rcases takePrefix_cases c with ⟨p, rest, rfl, -, -⟩ | h
    · exact absurd hs (by simp)
    · exact h
  unfold line
  rw [ht]
  simp only []
  rw [hp]
  simp only []
  rw [takeToken_end hs]
  simp [takeChannel, h0]

/-- What a line says that ends before anything is said in it. -/
def Mute (cmd : Bytes) (o : Option Line) : Prop :=
  ∀ l, o = some l → l.channel = none ∧ l.params = none ∧
    (l.command.head? = some AT ∨ l.command.head? = some COLON ∨ (l.command ≠ [] ∧ l.command <+: cmd))

/-- A line without tags that ends too early. -/
theorem cut_plain {pfx cmd rest c : Bytes} (hp : SP ∉ pfx) (hc : SP ∉ cmd) (h : c <+: COLON :: (pfx ++ SP :: (cmd ++ SP :: rest))) :
    Mute cmd (line c) ∨ ∃ z, z ≠ [] ∧ z <+: rest ∧ c = COLON :: (pfx ++ SP :: (cmd ++ SP :: z)) := by
  rcases prefix_cons h with rfl | ⟨c, rfl, h₁⟩
  · exact .inl fun l hl => by simp [line, takeTags, takePrefix, takeToken, cut] at hl
  rcases prefix_space h₁ with h | ⟨c, rfl, h₂⟩
  · left
    rw [line_token (by simp; exact ⟨by decide, prefix_no h hp⟩) (by simp)]
    rintro l ⟨⟩
    exact ⟨rfl, rfl, .inr (.inl rfl)⟩
  have hl : ∀ z, line (COLON :: (pfx ++ SP :: z)) =
      (let (cmd, s) := takeToken z
       let (chan, s) := takeChannel s
       if cmd = [] then none else some ⟨[], some pfx, cmd, chan, if s = [] then none else some s⟩) := by
    intro z
    unfold line
    rw [takeTags_other (by simp; decide)]
    simp only []
    rw [takePrefix_space _ hp]
  rcases prefix_space h₂ with h | ⟨z, rfl, h₃⟩
  · left
    rw [hl, takeToken_end (prefix_no h hc)]
    simp only [takeChannel]
    intro l hl
    split at hl
    · cases hl
    · rename_i h0
      cases hl
      exact ⟨rfl, rfl, .inr (.inr ⟨h0, h⟩)⟩
  · by_cases hz : z = []
    · left
      subst hz
      rw [hl, takeToken_space hc]
      simp only [takeChannel]
      intro l hl
      split at hl
      · cases hl
      · rename_i h0
        cases hl
        exact ⟨rfl, rfl, .inr (.inr ⟨h0, List.prefix_refl _⟩)⟩
    · exact .inr ⟨z, hz, h₃, rfl⟩

/-- A line with tags that ends too early. -/
theorem cut_tagged {t pfx cmd rest c : Bytes} (ht : SP ∉ t) (hp : SP ∉ pfx) (hc : SP ∉ cmd)
    (h : c <+: AT :: (t ++ SP :: (COLON :: (pfx ++ SP :: (cmd ++ SP :: rest))))) :
    Mute cmd (line c) ∨ ∃ z, z ≠ [] ∧ z <+: rest ∧ c = AT :: (t ++ SP :: (COLON :: (pfx ++ SP :: (cmd ++ SP :: z)))) := by
  rcases prefix_cons h with rfl | ⟨c, rfl, h₁⟩
  · exact .inl fun l hl => by simp [line, takeTags, takePrefix, takeToken, cut] at hl
  rcases prefix_space h₁ with h | ⟨c, rfl, h₂⟩
  · left
    rw [line_token (by simp; exact ⟨by decide, prefix_no h ht⟩) (by simp)]
    rintro l ⟨⟩
    exact ⟨rfl, rfl, .inl rfl⟩
  rcases cut_plain hp hc h₂ with h' | ⟨z, h1, h2, rfl⟩
  · left
    intro l hl
    have hno : c.head? ≠ some AT := by
      rcases prefix_cons h₂ with rfl | ⟨z, rfl, -⟩ <;> simp
      decide
    have key : (line (AT :: (t ++ SP :: c))).map (fun l => { l with tags := [] }) = line c := by
      unfold line
      rw [takeTags_space _ ht, takeTags_other hno]
      simp only []
      split <;> rfl
    have := h' { l with tags := [] } (by rw [← key, hl]; rfl)
    exact this
  · exact .inr ⟨z, h1, h2, rfl⟩

/-- The typed messages of a line that says nothing. -/
theorem mute_message {cmd : Bytes} (hc : cmd ∈ [b!"PRIVMSG", b!"CLEARCHAT", b!"CLEARMSG", b!"JOIN", b!"PART"]) {o : Option Line}
    (h : Mute cmd o) {l : Line} (hl : o = some l) {M : Message} (hM : MessageOf l M) : ∃ m, M = .other m := by
  obtain ⟨h1, h2, h3⟩ := h l hl
  by_cases hk : l.command ∈ typedCommands
  · exfalso
    have hne : ∀ x ∈ typedCommands, x.head? ≠ some AT ∧ x.head? ≠ some COLON := by decide +kernel
    rcases h3 with h3 | h3 | ⟨h0, h3⟩
    · exact (hne _ hk).1 h3
    · exact (hne _ hk).2 h3
    · have hkey : ∀ cmd ∈ [b!"PRIVMSG", b!"CLEARCHAT", b!"CLEARMSG", b!"JOIN", b!"PART"], ∀ x ∈ typedCommands, x <+: cmd → x = cmd := by
        decide +kernel
      have e := hkey cmd hc _ hk h3
      simp only [List.mem_cons, List.not_mem_nil, or_false] at hc
      cases M
      case other m => exact hM hk
      case privmsg v => rw [hM.2.channel] at h1; cases h1
      case clearChat v => rw [hM.2.channel] at h1; cases h1
      case clearMsg v => rw [hM.2.channel] at h1; cases h1
      case join v => rw [hM.2.channel] at h1; cases h1
      case part v => rw [hM.2.channel] at h1; cases h1
      all_goals
        first | have hM' := hM.1 | have hM' : l.command = b!"RECONNECT" := hM
        rw [e] at hM'
        rcases hc with rfl | rfl | rfl | rfl | rfl <;> revert hM' <;> decide
  · cases M
    case other m => exact ⟨m, rfl⟩
    case reconnect => exact absurd (by rw [show l.command = _ from hM]; decide) hk
    all_goals exact absurd (by rw [hM.1]; decide) hk

theorem mute_room {cmd : Bytes} (hc : cmd ∈ [b!"PRIVMSG", b!"CLEARCHAT", b!"CLEARMSG", b!"JOIN", b!"PART"]) {o : Option Line}
    (h : Mute cmd o) {l : Line} (hl : o = some l) : l.command ≠ b!"ROOMSTATE" := by
  intro e
  obtain ⟨-, -, h3⟩ := h l hl
  rw [e] at h3
  have hkey : ∀ cmd ∈ [b!"PRIVMSG", b!"CLEARCHAT", b!"CLEARMSG", b!"JOIN", b!"PART"], ¬ b!"ROOMSTATE" <+: cmd := by
    decide +kernel
  rcases h3 with h3 | h3 | ⟨-, h3⟩
  · revert h3; decide
  · revert h3; decide
  · exact hkey cmd hc h3

/-- The beginning of a line is within the limits. -/
theorem within_prefix {s c : Bytes} (h : Within s) (hc : c <+: s) : Within c := by
  have hp : tagPairs c = [] ∨ tagPairs c = tagPairs s := by
    unfold tagPairs
    rcases takeTags_cases c with ⟨t, rest, rfl, ht, e⟩ | e
    · obtain ⟨z, rfl⟩ := hc
      right
      rw [e, show AT :: (t ++ SP :: rest) ++ z = AT :: (t ++ SP :: (rest ++ z)) by simp, takeTags_space _ ht]
    · left; rw [e]
  refine ⟨Nat.lt_of_le_of_lt hc.length_le h.len, ?_, ?_⟩
  · rcases hp with hp | hp <;> rw [hp]
    · simp
    · exact h.count
  · rcases hp with hp | hp <;> rw [hp]
    · simp
    · exact h.sizes

/-- A line with the `\r` that follows it is within the limits. -/
theorem within_cr {s : Bytes} (h : Within s) (hl : s.length + 1 < 4294967296) : Within (s ++ [CR]) := by
  have hp : tagPairs (s ++ [CR]) = tagPairs s := by
    unfold tagPairs
    rcases tag_shape s with hn | ⟨t, rest, rfl, ht⟩ | ⟨r, rfl, hr⟩
    · rw [takeTags_no_at hn]
      by_cases h0 : s = []
      · subst h0; rfl
      · rw [takeTags_no_at fun r hr => ?_]
        cases s with
        | nil => exact h0 rfl
        | cons x t => simp only [List.cons_append, List.cons.injEq] at hr; exact hn t (by rw [hr.1])
    · rw [show AT :: (t ++ SP :: rest) ++ [CR] = AT :: (t ++ SP :: (rest ++ [CR])) by simp, takeTags_space _ ht, takeTags_space _ ht]
    · rw [show AT :: r ++ [CR] = AT :: (r ++ [CR]) by simp, takeTags_no_space hr,
        takeTags_no_space (by simp [hr]; decide)]
  exact ⟨by simpa using hl, by rw [hp]; exact h.count, by rw [hp]; exact h.sizes⟩

/-- A text is an action or not. -/
theorem actionText_exists (t : Bytes) : ∃ action text, actionText action text = t ∧
    (action = false → ¬ ∃ body, text = 0x01 :: b!"ACTION " ++ body ++ [0x01]) := by
  by_cases h : ∃ body, t = 0x01 :: b!"ACTION " ++ body ++ [0x01]
  · obtain ⟨body, rfl⟩ := h
    exact ⟨true, body, rfl, by simp⟩
  · exact ⟨false, t, rfl, fun _ => h⟩

/-- What can be there of a channel and a text. -/
theorem rest_cases {chan t z : Bytes} (h0 : z ≠ []) (h : z <+: HASH :: (chan ++ SP :: (COLON :: t))) :
    (∃ ch, ch <+: chan ∧ (z = HASH :: ch ∨ z = HASH :: (ch ++ [SP]))) ∨
    ∃ t', t' <+: t ∧ z = HASH :: (chan ++ SP :: (COLON :: t')) := by
  rcases prefix_cons h with rfl | ⟨z, rfl, h₁⟩
  · exact absurd rfl h0
  rcases prefix_space h₁ with h₂ | ⟨z, rfl, h₂⟩
  · exact .inl ⟨z, h₂, .inl rfl⟩
  rcases prefix_cons h₂ with rfl | ⟨z, rfl, h₃⟩
  · exact .inl ⟨chan, List.prefix_refl _, .inr rfl⟩
  · exact .inr ⟨z, h₃, rfl⟩

/-- A line with tags whose text is missing. -/
theorem quiet_line {tags : List (Bytes × Bytes)} {pfx cmd ch z : Bytes}
    (hk : ∀ p ∈ tags, EQS ∉ p.1 ∧ SP ∉ p.1) (hv : ∀ p ∈ tags, Unescaped p.2)
    (hp : SP ∉ pfx) (hc : SP ∉ cmd ∧ cmd ≠ []) (hsp : SP ∉ ch) (hz : z = HASH :: ch ∨ z = HASH :: (ch ++ [SP])) :
    line (AT :: (renderTags tags ++ SP :: (COLON :: (pfx ++ SP :: (cmd ++ SP :: z))))) =
      some ⟨tags, some pfx, cmd, some (HASH :: ch), none⟩ := by
  have hsp' : SP ∉ HASH :: ch := by simp [hsp]; decide
  rcases hz with rfl | rfl
  · exact bare_line hk hv hp hc rfl hsp'
  · unfold line
    rw [takeTags_space _ (renderTags_no_space _ fun p h => ⟨(hk p h).2, (hv p h).1⟩)]
    simp only []
    rw [takePrefix_space _ hp]
    simp only []
    rw [takeToken_space hc.1]
    simp only []
    rw [show HASH :: (ch ++ [SP]) = (HASH :: ch) ++ SP :: [] by simp, takeChannel_space rfl hsp', if_neg hc.2,
      splitTags_render _ fun p h => ⟨(hk p h).1, (hv p h).2⟩]
    simp

/-- Without a text there is no chat message, and no deleted message. -/
theorem quiet_message {l : Line} (hc : l.command = b!"PRIVMSG" ∨ l.command = b!"CLEARMSG") (hp : l.params = none) {M : Message}
    (hM : MessageOf l M) : False := by
  have ht : l.text = none := by simp [Line.text, hp]
  cases M
  case privmsg v => obtain ⟨t, h, -⟩ := hM.2.text; rw [ht] at h; cases h
  case clearMsg v => obtain ⟨t, h, -⟩ := hM.2.text; rw [ht] at h; cases h
  case other m =>
    have hM : l.command ∉ typedCommands := hM
    rcases hc with hc | hc <;> rw [hc] at hM <;> revert hM <;> decide
  all_goals
    first | have hM' := hM.1 | have hM' : l.command = b!"RECONNECT" := hM
    rcases hc with hc | hc <;> rw [hc] at hM' <;> revert hM' <;> decide

/-- The values of the tags of what the server says need no escaping. -/
theorem said_values {s : Said} (h : s.Ok) (hc : ∀ c, s ≠ .chat c) : ∀ p ∈ s.tags, Unescaped p.2 := by
  cases s with
  | chat c => exact absurd rfl (hc c)
  | cleared p =>
    simp only [Said.tags, List.mem_cons, List.not_mem_nil, or_false, forall_eq_or_imp, forall_eq]
    exact ⟨h.channelId, showNat_plain _⟩
  | banned p user userId =>
    simp only [Said.tags, List.mem_cons, List.not_mem_nil, or_false, forall_eq_or_imp, forall_eq]
    exact ⟨h.1.channelId, h.2, showNat_plain _⟩
  | timedOut p user userId n =>
    simp only [Said.tags, List.mem_cons, List.not_mem_nil, or_false, forall_eq_or_imp, forall_eq]
    exact ⟨showNat_plain _, h.1.channelId, h.2.1, showNat_plain _⟩
  | deleted p author id text action =>
    simp only [Said.tags, List.mem_cons, List.not_mem_nil, or_false, forall_eq_or_imp, forall_eq]
    exact ⟨h.2.1, h.1.channelId, h.2.2.1, showNat_plain _⟩
  | joined | parted => simp [Said.tags]

/-- A CLEARCHAT line without text, whatever the other tags. -/
theorem clear_quiet {l : Line} {p : Place} {ch : Bytes} (hcmd : l.command = b!"CLEARCHAT") (hch : l.channel = some (HASH :: ch))
    (hp : l.params = none) (h1 : l.tag (b!"room-id") = some p.channelId) (h2 : l.tag (b!"tmi-sent-ts") = some (showNat p.time))
    (ht : InChrono p.time) :
    ∃ M, MessageOf l M ∧ Heard (.cleared { p with channel := ch }) M ∧ ∀ m, M ≠ .other m := by
  obtain ⟨t, h3, h4⟩ := timestamp_at h2 ht
  exact ⟨.clearChat ⟨HASH :: ch, p.channelId, .clear, t⟩, ⟨hcmd, hch, h1, by simp [Line.text, hp], h3⟩,
    ⟨_, rfl, ⟨rfl, rfl, h4⟩, rfl⟩, by simp⟩

end Tmi.Proofs
