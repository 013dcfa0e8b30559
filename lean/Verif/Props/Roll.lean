/-
Property C113: the members of a channel are those that the server lists.
-/
import Verif.Spec.Roll
import Verif.Proofs.Words
import Verif.Proofs.Chatter
import Verif.Props.Happen

namespace Tmi.Props
open Tmi.Model Tmi.Spec Tmi.Proofs

/-! ## Words -/

theorem splitWsGo_word : ∀ (cs : List Char), (∀ c ∈ cs, isWhite c = false) → ∀ (t cur : Bytes),
    splitWsGo (enc cs ++ t) 0 cur = splitWsGo t 0 ((enc cs).reverse ++ cur)
  | [], _, t, cur => rfl
  | c :: cs, h, t, cur => by
    have e : enc (c :: cs) = String.utf8EncodeChar c ++ enc cs := by simp [enc]
    rw [e, List.append_assoc, splitWsGo_char (h c (by simp)), splitWsGo_word cs fun c' hc => h c' (by simp [hc])]
    simp

theorem enc_ne_nil {cs : List Char} (h : cs ≠ []) : enc cs ≠ [] := by
  cases cs with
  | nil => exact absurd rfl h
  | cons c cs =>
    intro e
    have e' : enc (c :: cs) = String.utf8EncodeChar c ++ enc cs := by simp [enc]
    rw [e'] at e
    have := (List.append_eq_nil_iff.1 e).1
    rcases enc_cases c with ⟨x, _, h⟩ | ⟨x, a, h, _⟩ <;> rw [h] at this <;> simp at this

theorem split_word_end {w : Bytes} (h : IsWord w) : splitWhitespace w = [w] := by
  obtain ⟨cs, rfl, h0, hw⟩ := h
  have := splitWsGo_word cs hw [] []
  rw [List.append_nil, List.append_nil] at this
  unfold splitWhitespace
  rw [this, splitWsGo]
  simp [enc_ne_nil h0]

theorem split_word {w : Bytes} (h : IsWord w) (r : Bytes) : splitWhitespace (w ++ SP :: r) = w :: splitWhitespace r := by
  obtain ⟨cs, rfl, h0, hw⟩ := h
  unfold splitWhitespace
  rw [splitWsGo_word cs hw, splitWsGo]
  have : wsLen (SP :: r) = 1 := rfl
  simp [this, enc_ne_nil h0]

theorem split_spaced : ∀ (ws : List Bytes), (∀ w ∈ ws, IsWord w) → splitWhitespace (spaced ws) = ws
  | [], _ => rfl
  | [w], h => split_word_end (h w (by simp))
  | w :: v :: ws, h => by
    rw [spaced, split_word (h w (by simp)), split_spaced (v :: ws) fun w' hw => h w' (by simp [hw])]
    simp

theorem word_hash {w : Bytes} (h : IsWord w) : IsWord (HASH :: w) := by
  obtain ⟨cs, rfl, h0, hw⟩ := h
  refine ⟨'#' :: cs, ?_, by simp, ?_⟩
  · have : String.utf8EncodeChar '#' = [HASH] := by decide
    simp [enc, this]
  · intro c hc
    rcases List.mem_cons.1 hc with rfl | hc
    · decide
    · exact hw c hc

theorem word_eq : IsWord (b!"=") := ⟨['='], by decide, by simp, by decide⟩

/-! ## C113: the members of a channel are those that the server lists -/

/-- The line grammar on a line from `host` with a command and a word that is no channel. -/
theorem line_from {host cmd rest : Bytes} (hh : SP ∉ host) (hc : SP ∉ cmd) (h0 : cmd ≠ []) (hr : rest.head? ≠ some HASH)
    (hn : rest ≠ []) :
    line (COLON :: (host ++ SP :: (cmd ++ SP :: rest))) = some ⟨[], some host, cmd, none, some rest⟩ := by
  unfold line
  rw [takeTags_no_at fun r h => by simp [COLON, AT] at h]
  simp only []
  rw [takePrefix_space _ hh]
  simp only []
  rw [takeToken_space hc]
  simp only []
  rw [takeChannel_other hr, if_neg h0, if_neg hn]

theorem word_head {me : Bytes} (hm : IsWord me) (hh : me.head? ≠ some HASH) (r : Bytes) :
    (me ++ r).head? ≠ some HASH ∧ me ++ r ≠ [] := by
  obtain ⟨cs, rfl, h0, -⟩ := hm
  have := enc_ne_nil h0
  cases h : enc cs with
  | nil => exact absurd h this
  | cons x t => rw [h] at hh; simpa using hh

/-- How the program reads each line. -/
theorem roll_read (b : Build) (host me : Bytes) (hh : SP ∉ host) (hm : IsWord me) (hc : COLON ∉ me)
    (h0 : me.head? ≠ some HASH) (r : Roll) (hr : r.Ok) (hs : Readable b (r.line host me)) (known : Bytes → KnownRoll) :
    MsgOwned.parse b (r.line host me) = .ok (some (parsed b (r.line host me))) ∧
    noteRoll known (parsed b (r.line host me)) =
      match r with
      | .names ch ms => change known (HASH :: ch) fun k => ⟨(if k.complete then [] else k.names) ++ ms, false⟩
      | .ended ch => change known (HASH :: ch) fun k => ⟨if k.complete then [] else k.names, true⟩
      | .other _ => known := by
  cases r with
  | names ch ms =>
    obtain ⟨k1, k2, k3⟩ := hr
    have e : Roll.line host me (.names ch ms) =
        COLON :: (host ++ SP :: (b!"353" ++ SP :: (me ++ SP :: (b!"=" ++ SP :: ((HASH :: ch) ++ SP :: (COLON :: spaced ms)))))) := by
      simp [Roll.line, SP, COLON, HASH]
    have hl := line_from (host := host) (cmd := b!"353")
      (rest := me ++ SP :: (b!"=" ++ SP :: ((HASH :: ch) ++ SP :: (COLON :: spaced ms)))) hh (by decide) (by decide)
      (word_head hm h0 _).1 (word_head hm h0 _).2
    rw [← e] at hl
    obtain ⟨h1, h2, R⟩ := owned_parse_some hs hl
    refine ⟨h1, ?_⟩
    have c1 : (parsed b (Roll.line host me (.names ch ms))).command = .ok .rplNames :=
      R.command.trans (congrArg Except.ok (show commandOf (b!"353") = .rplNames by decide))
    have p1 : (parsed b (Roll.line host me (.names ch ms))).params = .ok (some (me ++ SP :: (b!"=" ++ SP :: ((HASH :: ch) ++ SP :: (COLON :: spaced ms))))) :=
      R.params
    have c2 : (parsed b (Roll.line host me (.names ch ms))).channel = .ok (some (HASH :: ch)) := by
      unfold MsgOwned.channel
      rw [c1, bind_ok]
      simp only []
      rw [p1, bind_ok]
      rw [Option.bind_some, split_word hm, split_word word_eq, split_word (word_hash k1)]
      rfl
    have t1 : (parsed b (Roll.line host me (.names ch ms))).text = .ok (some (spaced ms)) := by
      have := (C15_accessors_partial (parsed b (Roll.line host me (.names ch ms))).asRef).2.2.2.2.2.2.2.2.2.1 _ R.params
        (by simp)
      have e2 : (parsed b (Roll.line host me (.names ch ms))).asRef.intoOwned = parsed b (Roll.line host me (.names ch ms)) := rfl
      rw [e2] at this
      rw [this, R.text]
      have e3 : me ++ SP :: (b!"=" ++ SP :: ((HASH :: ch) ++ SP :: (COLON :: spaced ms))) =
          (me ++ SP :: (b!"=" ++ SP :: ((HASH :: ch) ++ [SP]))) ++ COLON :: spaced ms := by simp
      rw [Option.map_some, e3, textOf, cut_append]
      simp only [List.mem_append, List.mem_cons, List.not_mem_nil, or_false, not_or]
      exact ⟨hc, by decide, by decide, by decide, ⟨by decide, k2⟩, by decide⟩
    unfold noteRoll
    rw [c1, c2, t1]
    simp only []
    rw [split_spaced ms k3]
  | ended ch =>
    have e : Roll.line host me (.ended ch) =
        COLON :: (host ++ SP :: (b!"366" ++ SP :: (me ++ SP :: ((HASH :: ch) ++ SP :: b!":End of /NAMES list")))) := by
      simp [Roll.line, SP, COLON, HASH]
    have hl := line_from (host := host) (cmd := b!"366")
      (rest := me ++ SP :: ((HASH :: ch) ++ SP :: b!":End of /NAMES list")) hh (by decide) (by decide)
      (word_head hm h0 _).1 (word_head hm h0 _).2
    rw [← e] at hl
    obtain ⟨h1, h2, R⟩ := owned_parse_some hs hl
    refine ⟨h1, ?_⟩
    have c1 : (parsed b (Roll.line host me (.ended ch))).command = .ok .rplEndOfNames :=
      R.command.trans (congrArg Except.ok (show commandOf (b!"366") = .rplEndOfNames by decide))
    have p1 : (parsed b (Roll.line host me (.ended ch))).params = .ok (some (me ++ SP :: ((HASH :: ch) ++ SP :: b!":End of /NAMES list"))) :=
      R.params
    have c2 : (parsed b (Roll.line host me (.ended ch))).channel = .ok (some (HASH :: ch)) := by
      unfold MsgOwned.channel
      rw [c1, bind_ok]
      simp only []
      rw [p1, bind_ok]
      rw [Option.bind_some, split_word hm, split_word (word_hash hr)]
      rfl
    unfold noteRoll
    rw [c1, c2]
  | other s =>
    obtain ⟨l, hl, k1, k2⟩ := hr
    obtain ⟨h1, h2, R⟩ := owned_parse_some hs hl
    refine ⟨h1, ?_⟩
    have c1 : (parsed b s).command = .ok (commandOf l.command) := R.command
    unfold noteRoll
    simp only [Roll.line]
    rw [c1]
    split
    · rename_i h _ _
      have := commandOf_asStr l.command
      cases h' : commandOf l.command <;> rw [h'] at h this <;> first | exact absurd this.symm k1 | cases h
    · rename_i h _
      have := commandOf_asStr l.command
      cases h' : commandOf l.command <;> rw [h'] at h this <;> first | exact absurd this.symm k2 | cases h
    · rfl

/-- What one reply changes for one channel. -/
def rollStep (ch : Bytes) (k : KnownRoll) : Roll → KnownRoll
  | .names c ms => if c = ch then ⟨(if k.complete then [] else k.names) ++ ms, false⟩ else k
  | .ended c => if c = ch then ⟨if k.complete then [] else k.names, true⟩ else k
  | .other _ => k

theorem fold_note (b : Build) (host me : Bytes) (hh : SP ∉ host) (hm : IsWord me) (hc : COLON ∉ me)
    (h0 : me.head? ≠ some HASH) (ch : Bytes) : ∀ (rs : List Roll), (∀ r ∈ rs, r.Ok ∧ Readable b (r.line host me)) →
    ∀ known, ((rs.map fun r => parsed b (r.line host me)).foldl noteRoll known) (HASH :: ch) =
      rs.foldl (rollStep ch) (known (HASH :: ch))
  | [], _, _ => rfl
  | r :: rs, h, known => by
    rw [List.map_cons, List.foldl_cons, List.foldl_cons,
      fold_note b host me hh hm hc h0 ch rs (fun r' hr => h r' (by simp [hr])),
      (roll_read b host me hh hm hc h0 r (h r (by simp)).1 (h r (by simp)).2 known).2]
    congr 1
    cases r with
    | names c ms =>
      simp only [change, rollStep, List.cons.injEq, true_and]
      by_cases e : c = ch
      · rw [if_pos e, if_pos e.symm, e]
      · rw [if_neg e, if_neg fun h => e h.symm]
    | ended c =>
      simp only [change, rollStep, List.cons.injEq, true_and]
      by_cases e : c = ch
      · rw [if_pos e, if_pos e.symm, e]
      · rw [if_neg e, if_neg fun h => e h.symm]
    | other s => rfl

theorem fold_about_none (ch : Bytes) : ∀ (rs : List Roll), (∀ r ∈ rs, ¬ r.About ch) → ∀ k, rs.foldl (rollStep ch) k = k
  | [], _, _ => rfl
  | r :: rs, h, k => by
    have hr := h r (by simp)
    have : rollStep ch k r = k := by
      cases r with
      | names c ms => exact if_neg hr
      | ended c => exact if_neg hr
      | other s => rfl
    rw [List.foldl_cons, this]
    exact fold_about_none ch rs (fun r' hr => h r' (by simp [hr])) k

theorem fold_listing (ch : Bytes) : ∀ (mid : List Roll), (∀ r ∈ mid, r ≠ .ended ch) → ∀ names,
    mid.foldl (rollStep ch) ⟨names, false⟩ = ⟨names ++ mid.flatMap (namesOf ch), false⟩
  | [], _, names => by simp
  | r :: mid, h, names => by
    rw [List.foldl_cons, List.flatMap_cons]
    have hr := h r (by simp)
    have : rollStep ch ⟨names, false⟩ r = ⟨names ++ namesOf ch r, false⟩ := by
      cases r with
      | names c ms => by_cases e : c = ch <;> simp [rollStep, namesOf, e]
      | ended c =>
        have : c ≠ ch := fun e => hr (by rw [e])
        simp [rollStep, namesOf, this]
      | other s => simp [rollStep, namesOf]
    rw [this, fold_listing ch mid (fun r' hr => h r' (by simp [hr])), List.append_assoc]

theorem fold_again (ch : Bytes) (old : List Bytes) : ∀ (mid : List Roll), (∀ r ∈ mid, r ≠ .ended ch) →
    (∃ r ∈ mid, r.About ch) → mid.foldl (rollStep ch) ⟨old, true⟩ = ⟨mid.flatMap (namesOf ch), false⟩
  | [], _, ⟨_, hr, _⟩ => by simp at hr
  | r :: mid, h, ha => by
    have hr := h r (by simp)
    have hm : ∀ r ∈ mid, r ≠ .ended ch := fun r' hr => h r' (by simp [hr])
    rw [List.foldl_cons, List.flatMap_cons]
    by_cases e : r.About ch
    · cases r with
      | names c ms =>
        have e : c = ch := e
        have : rollStep ch ⟨old, true⟩ (.names c ms) = ⟨ms, false⟩ := by simp [rollStep, e]
        rw [this, fold_listing ch mid hm]
        simp [namesOf, e]
      | ended c =>
        have e : c = ch := e
        exact absurd (by rw [e]) hr
      | other s => exact absurd e id
    · have h1 : rollStep ch ⟨old, true⟩ r = ⟨old, true⟩ := by
        cases r with
        | names c ms => exact if_neg e
        | ended c => exact if_neg e
        | other s => rfl
      have h2 : namesOf ch r = [] := by
        cases r with
        | names c ms => exact if_neg e
        | ended c => rfl
        | other s => rfl
      rw [h1, h2, List.nil_append]
      obtain ⟨r', hr', ha'⟩ := ha
      rcases List.mem_cons.1 hr' with rfl | hr'
      · exact absurd ha' e
      · exact fold_again ch old mid hm ⟨r', hr', ha'⟩

/-- C113: if a server that lists the members of channels sends this, among any other lines and however cut into pieces, then
`recv` returns one message for each line, and at every moment the program knows of each channel exactly the members that have
been listed since the end of the last list, and whether those are all. -/
theorem C113_members (b : Build) (host me : Bytes) (hh : SP ∉ host) (hm : IsWord me) (hc : COLON ∉ me)
    (h0 : me.head? ≠ some HASH) (rs : List Roll)
    (hr : ∀ r ∈ rs, r.Ok ∧ Readable b (r.line host me) ∧ LF ∉ r.line host me) (net : List Net)
    (hn : arrived net = rs.flatMap fun r => r.line host me ++ [CR, LF]) (he : ending net = .open_) :
    ∃ ms : List MsgOwned, (∃ N, ∀ n, N ≤ n → recvPolls b n .new net = ms.map fun m => .ok (.ok m)) ∧
      ms.length = rs.length ∧
      ∀ n ch before list, (before = [] ∨ before.getLast? = some (.ended ch)) → (∀ r ∈ list, r ≠ .ended ch) →
        let known := (ms.take n).foldl noteRoll noRoll (HASH :: ch)
        -- in the middle of a list
        (rs.take n = before ++ list → before = [] ∨ (∃ r ∈ list, r.About ch) →
          known = ⟨list.flatMap (namesOf ch), false⟩) ∧
        -- and after it
        (∀ after, rs.take n = before ++ list ++ .ended ch :: after → (∀ r ∈ after, ¬ r.About ch) →
          before = [] ∨ (∃ r ∈ list, r.About ch) → known = ⟨list.flatMap (namesOf ch), true⟩) := by
  refine ⟨rs.map fun r => parsed b (r.line host me), ?_, by simp, ?_⟩
  · obtain ⟨N, hN⟩ := (C60_open b net he).2
    refine ⟨N, fun n hn' => ?_⟩
    rw [hN n hn', hn, List.map_map]
    clear hn hN hn'
    induction rs with
    | nil => simp [delivered, receivedLines, fields_none]
    | cons r rs ih =>
      obtain ⟨h1, h2, h3⟩ := hr r (by simp)
      rw [List.flatMap_cons, (C60_utf8 _ _ h3).1 h2.1, List.map_cons, List.map_cons, ih fun r' h => hr r' (by simp [h])]
      simp only [Function.comp, expected, (roll_read b host me hh hm hc h0 r h1 h2 noRoll).1]
  · intro n ch before list hb hl
    simp only []
    rw [← List.map_take, fold_note b host me hh hm hc h0 ch (rs.take n)
      (fun r h => ⟨(hr r (List.mem_of_mem_take h)).1, (hr r (List.mem_of_mem_take h)).2.1⟩)]
    have core : before = [] ∨ (∃ r ∈ list, r.About ch) →
        (before ++ list).foldl (rollStep ch) (noRoll (HASH :: ch)) = ⟨list.flatMap (namesOf ch), false⟩ := by
      intro ha
      rw [List.foldl_append]
      rcases hb with rfl | hb
      · have := fold_listing ch list hl []
        simpa [noRoll] using this
      · obtain ⟨p, rfl⟩ := List.getLast?_eq_some_iff.1 hb
        rw [List.foldl_append, List.foldl_cons, List.foldl_nil]
        have : ∀ k, ∃ o, rollStep ch k (.ended ch) = ⟨o, true⟩ := fun k => ⟨_, if_pos rfl⟩
        obtain ⟨o, e⟩ := this (p.foldl (rollStep ch) (noRoll (HASH :: ch)))
        rw [e]
        refine fold_again ch o list hl (ha.resolve_left (by simp))
    refine ⟨fun e ha => ?_, fun after e hq ha => ?_⟩
    · rw [e]; exact core ha
    · rw [e, List.foldl_append, core ha, List.foldl_cons, fold_about_none ch after hq]
      simp [rollStep]

/-- Two lists of one channel, with a chat message and a list of another channel between the parts. -/
def sampleRolls : List Roll :=
  [.names (b!"a") [b!"x", b!"y"], .other (b!":x!x@x PRIVMSG #a :353"), .names (b!"b") [b!"z"], .names (b!"a") [b!"me"],
    .ended (b!"a"), .names (b!"a") [b!"y"], .ended (b!"b"), .ended (b!"a")]

theorem word_of (cs : List Char) (h : cs ≠ [] ∧ ∀ c ∈ cs, isWhite c = false) : IsWord (enc cs) := ⟨cs, rfl, h.1, h.2⟩

theorem sampleRolls_ok (b : Build) : ∀ r ∈ sampleRolls, r.Ok ∧ Readable b (r.line (b!"h") (b!"me")) ∧
    LF ∉ r.line (b!"h") (b!"me") := by
  have wa : IsWord (b!"a") := word_of ['a'] (by decide)
  have wb : IsWord (b!"b") := word_of ['b'] (by decide)
  intro r hr
  simp only [sampleRolls, List.mem_cons, List.not_mem_nil, or_false] at hr
  rcases hr with rfl | rfl | rfl | rfl | rfl | rfl | rfl | rfl <;>
    refine ⟨?_, readable_of (by decide +kernel) b, by decide⟩
  · refine ⟨wa, by decide, fun m hm => ?_⟩
    simp only [List.mem_cons, List.not_mem_nil, or_false] at hm
    rcases hm with rfl | rfl
    · exact word_of ['x'] (by decide)
    · exact word_of ['y'] (by decide)
  · exact ⟨_, line_eq _ (by decide +kernel), by decide +kernel, by decide +kernel⟩
  · refine ⟨wb, by decide, fun m hm => ?_⟩
    simp only [List.mem_cons, List.not_mem_nil, or_false] at hm
    subst hm
    exact word_of ['z'] (by decide)
  · refine ⟨wa, by decide, fun m hm => ?_⟩
    simp only [List.mem_cons, List.not_mem_nil, or_false] at hm
    subst hm
    exact word_of ['m', 'e'] (by decide)
  · exact wa
  · refine ⟨wa, by decide, fun m hm => ?_⟩
    simp only [List.mem_cons, List.not_mem_nil, or_false] at hm
    subst hm
    exact word_of ['y'] (by decide)
  · exact wb
  · exact wa

/-- After the third line the first list of `#a` is not complete; in the end the program knows the second one. -/
example : ∃ ms : List MsgOwned, ms.length = 8 ∧
    (ms.take 3).foldl noteRoll noRoll (b!"#a") = ⟨[b!"x", b!"y"], false⟩ ∧
    (ms.take 8).foldl noteRoll noRoll (b!"#a") = ⟨[b!"y"], true⟩ := by
  let wire := sampleRolls.flatMap fun r => r.line (b!"h") (b!"me") ++ [CR, LF]
  obtain ⟨ms, -, hl, h⟩ := C113_members ⟨.simd .sse2 5, true⟩ (b!"h") (b!"me") (by decide) (word_of ['m', 'e'] (by decide))
    (by decide) (by decide) sampleRolls (sampleRolls_ok _)
    [.data (wire.take 100), .pending, .data (wire.drop 100)] (by decide +kernel) (by decide +kernel)
  refine ⟨ms, hl, ?_, ?_⟩
  · exact (h 3 (b!"a") [] (sampleRolls.take 3) (.inl rfl) (by simp [sampleRolls])).1 rfl (.inl rfl)
  · refine (h 8 (b!"a") (sampleRolls.take 5) ((sampleRolls.drop 5).take 2) (.inr rfl) (by simp [sampleRolls])).2 [] rfl (by simp) (.inr ?_)
    exact ⟨.names (b!"a") [b!"y"], by simp [sampleRolls], rfl⟩

end Tmi.Props
