/-
C117: the same program behaves alike on every processor, and in debug and release builds.
-/
import Verif.Spec.Builds
import Verif.Proofs.Release
import Verif.Proofs.Builds
import Verif.Proofs.Sizes
import Verif.Props.Listed
import Verif.Props.Send

namespace Tmi.Props
open Tmi.Model Tmi.Spec Tmi.Proofs

theorem owned_eq_of_ref {b b' : Build} {s : Bytes} (h : MsgRef.parse b s = MsgRef.parse b' s) : AlikeOn b b' s := by
  unfold AlikeOn
  rw [owned_of_ref, owned_of_ref, h]

/-- C117: whichever vector instructions the processor has, and wherever in memory the lines are put, connecting and whatever
program then uses the client do the same. -/
theorem C117_processors (a₁ a₂ : Arch) (addr₁ addr₂ : Nat) (checks : Bool) (w : World) :
    (∀ cfg, connect ⟨.simd a₁ addr₁, checks⟩ cfg w = connect ⟨.simd a₂ addr₂, checks⟩ cfg w) ∧
    ∀ (p : Program) (n : Nat) (before : List Gave),
      p.run ⟨.simd a₁ addr₁, checks⟩ n before w = p.run ⟨.simd a₂ addr₂, checks⟩ n before w :=
  have h : AlikeIn ⟨.simd a₁ addr₁, checks⟩ ⟨.simd a₂ addr₂, checks⟩ w.script :=
    fun s _ => owned_eq_of_ref (C03_backends_agree a₁ a₂ addr₁ addr₂ checks s)
  ⟨fun cfg => (Alike.connect cfg w h).1, fun p n before => Alike.run p n before w h⟩

/-- C117: so they do on a processor without vector instructions, if the lines that arrive are ordinary. -/
theorem C117_portable (a : Arch) (addr : Nat) (checks : Bool) (w : World) (hw : Ordinary w.script) :
    (∀ cfg, connect ⟨.scalar, checks⟩ cfg w = connect ⟨.simd a addr, checks⟩ cfg w) ∧
    ∀ (p : Program) (n : Nat) (before : List Gave),
      p.run ⟨.scalar, checks⟩ n before w = p.run ⟨.simd a addr, checks⟩ n before w :=
  have h : AlikeIn ⟨.scalar, checks⟩ ⟨.simd a addr, checks⟩ w.script := fun s hs =>
    have ⟨hu, hl, ht⟩ := hw s hs
    owned_eq_of_ref (C04_scalar_simd_agree_partial a addr checks s hu hl ht)
  ⟨fun cfg => (Alike.connect cfg w h).1, fun p n before => Alike.run p n before w h⟩

/-- Non-vacuity: a world with a tagged chat message and a PING is ordinary. -/
example : Ordinary [.line samplePriv, .line (b!"PING :tmi.twitch.tv"), .eof] := by
  intro s hs
  simp only [List.mem_cons, Answer.line.injEq, reduceCtorEq, List.not_mem_nil, or_false] at hs
  rcases hs with rfl | rfl
  · exact ⟨utf8_of samplePriv_ok, (within_of samplePriv_ok).len, by decide +kernel⟩
  · exact ⟨.of_ascii (by decide), by decide, by decide⟩

/-- C117: and not otherwise: of a line that is nothing but tags the two make different things. -/
theorem C117_differ (a : Arch) (addr : Nat) (checks : Bool) (w : World) (s : Bytes) (rest : List Answer)
    (ho : w.client.closed = false) (hs : w.script = .line s :: rest) (hu : Utf8 s) (hl : s.length < 4294967296) :
    recv ⟨.scalar, checks⟩ w = recv ⟨.simd a addr, checks⟩ w ↔ (s.head? = some AT → SP ∈ s) := by
  have key : MsgOwned.parse ⟨.scalar, checks⟩ s = MsgOwned.parse ⟨.simd a addr, checks⟩ s ↔ (s.head? = some AT → SP ∈ s) := by
    rw [← C04_scalar_simd_agree_iff a addr checks s hu hl, owned_of_ref, owned_of_ref]
    constructor
    · intro h
      cases h1 : MsgRef.parse ⟨.scalar, checks⟩ s <;> cases h2 : MsgRef.parse ⟨.simd a addr, checks⟩ s <;>
        rw [h1, h2] at h <;> simp only [Except.map, reduceCtorEq, Except.error.injEq, Except.ok.injEq] at h
      · rw [h]
      · rename_i r₁ r₂
        cases r₁ <;> cases r₂ <;> simp [MsgRef.intoOwned] at h
        · rfl
        · rename_i m₁ m₂
          obtain ⟨c₁, s₁, p₁⟩ := m₁
          obtain ⟨c₂, s₂, p₂⟩ := m₂
          simp only at h
          rw [h.1, h.2.1, h.2.2]
    · intro h; rw [h]
  rw [← key]
  have run : ∀ b, recv b w = match MsgOwned.parse b s with
      | .ok (some m) => (.ok (.ok m), { w with log := w.log ++ [.took s], script := rest })
      | .ok none => (.ok (.error (.parse s)), { w with log := w.log ++ [.took s], script := rest })
      | .error f => (.error (.panic f), { w with log := w.log ++ [.took s], script := rest }) := by
    intro b
    rw [recv_run, ho, hs]
    simp only [Bool.false_eq_true, if_false]
    cases MsgOwned.parse b s with
    | error f => rfl
    | ok r => cases r <;> rfl
  rw [run, run]
  constructor
  · intro h
    revert h
    rcases MsgOwned.parse ⟨.scalar, checks⟩ s with f | _ | m <;> rcases MsgOwned.parse ⟨.simd a addr, checks⟩ s with f' | _ | m' <;>
      simp
  · intro h; rw [h]

/-- Non-vacuity: the line `@a`. -/
example := C117_differ .avx2 0 true ⟨⟨false, [], sampleConfig⟩, [], [.line (b!"@a")]⟩ (b!"@a") [] rfl rfl
  (.of_ascii (by decide)) (by decide)

/-! ### Debug and release builds -/

/-- Where the tags of a parsed message are. -/
theorem parsed_tags {b : Build} {s : Bytes} (hu : Utf8 s) (hl : s.length < 4294967296) {m : MsgRef}
    (h : MsgRef.parse b s = .ok (some m)) : m.src = s ∧ m.checks = b.checks ∧ m.parts.tags = locate 0 (tagPairs s) := by
  have hn : ¬ ∃ e, MsgRef.parse b s = .error e := by rintro ⟨e, he⟩; rw [h] at he; cases he
  rw [C01_parse_panics_iff b s hu hl] at hn
  have hc : (tagPairs s).length ≤ 128 := by
    by_cases hc : 128 < (tagPairs s).length
    · exact absurd (.inl hc) hn
    · omega
  have ht : TagsTerminated b s := by
    intro h1 r hr
    by_cases h2 : SP ∈ r
    · exact h2
    · refine absurd (.inr ⟨h1, by rw [hr]; rfl, fun h3 => ?_⟩) hn
      rw [hr] at h3
      rcases List.mem_cons.1 h3 with h3 | h3
      · exact absurd h3 (by decide)
      · exact h2 h3
  obtain ⟨r, hr, -, h3⟩ := parse_ok b hu hl hc ht
  rw [h] at hr
  injection hr with hr
  exact h3 m hr.symm

/-- What a stored tag denotes does not depend on overflow checks. -/
theorem located_alike {s : Bytes} (hu : Utf8 s) (hl : s.length < 4294967296) :
    ∀ p ∈ locate 0 (tagPairs s), (p.key true >>= Span.get s) = (p.key false >>= Span.get s) ∧
      (p.value true >>= Span.get s) = (p.value false >>= Span.get s) := by
  have both : ∀ {L : List TagPair} {T : List (Option Bytes × Option Bytes)}, All₂ (DenotesShort true s) L T →
      All₂ (DenotesShort false s) L T → ∀ p ∈ L, (p.key true >>= Span.get s) = (p.key false >>= Span.get s) ∧
      (p.value true >>= Span.get s) = (p.value false >>= Span.get s) := by
    intro L T h1 h2
    induction h1 with
    | nil => intro p hp; simp at hp
    | cons h _ ih =>
      cases h2 with
      | cons h' t' =>
        intro p hp
        rcases List.mem_cons.1 hp with rfl | hp
        · exact ⟨h.1.trans h'.1.symm, h.2.trans h'.2.symm⟩
        · exact ih t' p hp
  rcases tag_shape s with h | ⟨t, rest, rfl, h⟩ | ⟨r, rfl, h⟩
  · have : tagPairs s = [] := by unfold tagPairs; rw [takeTags_no_at h]
    rw [this]; intro p hp; simp [locate] at hp
  · have : tagPairs (AT :: (t ++ SP :: rest)) = splitTags t := by unfold tagPairs; rw [takeTags_space rest h]
    rw [this]
    have hus := (hu.tail (by decide)).split (x := SP) (by decide)
    have hr : Utf8 (SP :: rest) := Utf8.cons (by decide) hus.2
    exact both (locate_short true _ hl (SP :: rest) hr t [AT] 0 rfl hus.1 rfl)
      (locate_short false _ hl (SP :: rest) hr t [AT] 0 rfl hus.1 rfl)
  · have : tagPairs (AT :: r) = [] := by unfold tagPairs; rw [takeTags_no_space h]
    rw [this]; intro p hp; simp [locate] at hp

theorem findTag_alike {src key : Bytes} : ∀ (L : List TagPair), (∀ p ∈ L, (p.key true >>= Span.get src) = (p.key false >>= Span.get src)) →
    findTag true src key L = findTag false src key L
  | [], _ => rfl
  | p :: ps, h => by
    have hp := h p (List.mem_cons_self ..)
    have ih := findTag_alike (key := key) ps fun q hq => h q (List.mem_cons_of_mem _ hq)
    have unf : ∀ c, findTag c src key (p :: ps)
        = ((p.key c >>= Span.get src) >>= fun k => if k == key then .ok (some p) else findTag c src key ps) := by
      intro c
      rw [findTag]
      cases p.key c <;> rfl
    rw [unf, unf, hp, ih]

theorem findTag_mem {c : Bool} {src key : Bytes} : ∀ {L : List TagPair} {p : TagPair}, findTag c src key L = .ok (some p) → p ∈ L
  | [], p, h => by simp [findTag] at h
  | q :: qs, p, h => by
    rw [findTag] at h
    cases h1 : q.key c with
    | error e => rw [h1] at h; simp [Model.bind_error] at h
    | ok sp =>
      rw [h1, Model.bind_ok] at h
      cases h2 : Span.get src sp with
      | error e => rw [h2] at h; simp [Model.bind_error] at h
      | ok k =>
        rw [h2, Model.bind_ok] at h
        split at h
        · simp only [pure, Except.pure, Except.ok.injEq, Option.some.injEq] at h; exact h ▸ List.mem_cons_self ..
        · exact List.mem_cons_of_mem _ (findTag_mem h)

/-- C117: of a line below 4 GiB a release build makes what a debug build makes of it, whatever the processors, and the
message answers every question in the same way. -/
theorem C117_release (tp tp' : TagParser) (s : Bytes) (hu : Utf8 s) (hl : s.length < 4294967296)
    (ht : s.head? = some AT → SP ∈ s) :
    MsgRef.parse ⟨tp', false⟩ s = (MsgRef.parse ⟨tp, true⟩ s).map (Option.map unchecked) ∧
    ∀ m, MsgRef.parse ⟨tp, true⟩ s = .ok (some m) →
      (unchecked m).raw = m.raw ∧ (unchecked m).tags = m.tags ∧ (∀ t, (unchecked m).tag t = m.tag t) ∧
      (unchecked m).prefix? = m.prefix? ∧ (unchecked m).command = m.command ∧ (unchecked m).channel = m.channel ∧
      (unchecked m).params = m.params ∧ (unchecked m).text = m.text := by
  constructor
  · have same : parseTags ⟨tp', false⟩ s 0 = parseTags ⟨tp, true⟩ s 0 := by
      rcases tag_shape s with h | ⟨t, rest, rfl, h⟩ | ⟨r, rfl, h⟩
      · rw [parseTags_no_at _ h, parseTags_no_at _ h]
      · simp only [List.length_cons, List.length_append] at hl
        rw [parseTags_space _ rest h, parseTags_space _ rest h, sectionTags_eq _ t (by omega), sectionTags_eq _ t (by omega)]
      · rcases List.mem_cons.1 (ht rfl) with h1 | h1
        · exact absurd h1 (by decide)
        · exact absurd h1 h
    unfold MsgRef.parse
    rw [same]
    cases parseTags ⟨tp, true⟩ s 0 with
    | error e => rfl
    | ok x =>
      simp only [Model.bind_ok]
      cases parsePrefix s x.2 with
      | error e => rfl
      | ok y =>
        simp only [Model.bind_ok]
        cases parseCommand s y.2 with
        | error e => rfl
        | ok z =>
          simp only [Model.bind_ok]
          rcases z with ⟨_ | c, pos⟩
          · rfl
          · simp only
            cases parseChannel s pos with
            | error e => rfl
            | ok u =>
              simp only [Model.bind_ok]
              cases parseParams s u.2 <;> rfl
  · intro m hm
    obtain ⟨h1, h2, h3⟩ := parsed_tags hu hl hm
    have hp := located_alike hu hl
    rw [← h3, ← h1] at hp
    refine ⟨rfl, ?_, ?_, rfl, rfl, rfl, rfl, rfl⟩
    · have unf : ∀ c (p : TagPair), p.get c m.src
          = ((p.key c >>= Span.get m.src) >>= fun k => (p.value c >>= Span.get m.src) >>= fun v => .ok (k, v)) := by
        intro c p
        unfold TagPair.get
        cases p.key c with
        | error e => rfl
        | ok x =>
          simp only [Model.bind_ok]
          cases Span.get m.src x with
          | error e => rfl
          | ok k =>
            simp only [Model.bind_ok]
            cases p.value c <;> rfl
      show (m.parts.tags.mapM fun p => p.get false m.src) = m.parts.tags.mapM fun p => p.get m.checks m.src
      rw [h2]
      generalize m.parts.tags = L at hp
      induction L with
      | nil => rfl
      | cons p ps ih =>
        rw [List.mapM_cons, List.mapM_cons, ih fun q hq => hp q (List.mem_cons_of_mem _ hq), unf, unf,
          (hp p (List.mem_cons_self ..)).1, (hp p (List.mem_cons_self ..)).2]
    · intro t
      show (findTag false m.src t.asStr m.parts.tags >>= fun o => match o with
        | none => .ok none
        | some p => p.value false >>= fun sp => Span.get m.src sp >>= fun v => .ok (some v))
        = (findTag m.checks m.src t.asStr m.parts.tags >>= fun o => match o with
        | none => .ok none
        | some p => p.value m.checks >>= fun sp => Span.get m.src sp >>= fun v => .ok (some v))
      rw [h2, ← findTag_alike _ fun p hp' => (hp p hp').1]
      cases hf : findTag true m.src t.asStr m.parts.tags with
      | error e => rfl
      | ok o =>
        cases o with
        | none => rfl
        | some p =>
          have := (hp p (findTag_mem hf)).2
          have unf : ∀ c, (p.value c >>= fun sp => Span.get m.src sp >>= fun v => (.ok (some v) : R (Option Bytes)))
              = ((p.value c >>= Span.get m.src) >>= fun v => .ok (some v)) := by
            intro c
            cases p.value c <;> rfl
          simp only [Model.bind_ok, unf]
          rw [this]

example := C117_release .scalar (.simd .neon 7) samplePriv (utf8_of samplePriv_ok) (within_of samplePriv_ok).len (by decide +kernel)

/-- C117: and the typed message is the same, unless it is a ROOMSTATE whose number of minutes is too large: there a debug
build panics, and a release build computes modulo 2^64. -/
theorem C117_typed (tp tp' : TagParser) (s : Bytes) (hu : Utf8 s) (hl : s.length < 4294967296)
    (ht : s.head? = some AT → SP ∈ s) (m : MsgRef) (hm : MsgRef.parse ⟨tp, true⟩ s = .ok (some m))
    (tags : List (Bytes × Bytes)) (hg : m.tags = .ok tags)
    (ho : m.command = .ok .roomState → ∀ v n, lookup (b!"followers-only") tags = some v → I64 v n → n ≤ maxMinutes) :
    MsgRef.parse ⟨tp', false⟩ s = .ok (some (unchecked m)) ∧ ∃ r, Message.fromIrc m = .ok r ∧
      Message.fromIrc (unchecked m) = .ok (r.map uncheckedTyped) := by
  obtain ⟨h1, h2⟩ := C117_release tp tp' s hu hl ht
  have hm' : MsgRef.parse ⟨tp', false⟩ s = .ok (some (unchecked m)) := by rw [h1, hm]; rfl
  have hg' : (unchecked m).tags = .ok tags := by rw [(h2 m hm).2.1, hg]
  refine ⟨hm', ?_⟩
  obtain ⟨l, hline, h3⟩ := C68_message _ s hu hl m hm tags hg
  obtain ⟨l', hline', h3'⟩ := C68_message _ s hu hl _ hm' tags hg'
  rw [hline] at hline'
  injection hline' with hline'
  subst hline'
  have hno : l.command = b!"ROOMSTATE" → ¬ FollowersOverflow { l with tags := tags } := by
    rintro hc ⟨v, n, hv, hn, hlt⟩
    obtain ⟨l', hl', -, R⟩ := represents_listed hu hl hm hg
    rw [hline] at hl'
    injection hl' with hl'
    subst hl'
    have hcmd : m.command = .ok .roomState := by rw [R.command]; simp only [hc]; rfl
    have := ho hcmd v n hv hn
    omega
  obtain ⟨⟨r, hr⟩, h4⟩ := h3 hno
  obtain ⟨⟨r', hr'⟩, h4'⟩ := h3' hno
  refine ⟨r, hr, hr'.trans (congrArg _ ?_)⟩
  cases r with
  | some M =>
    have hM := (h4 M).1 hr
    have hk : Message.fromIrc (unchecked m) = .ok (some (uncheckedTyped M)) := by
      rw [h4']
      cases M with
      | other m' =>
        refine ⟨hM.1, fun m'' h => ?_⟩
        rw [hM.2 _ rfl] at h
        injection h with h
        exact h.symm
      | _ => exact ⟨hM.1, fun m' h => by cases h⟩
    rw [hr'] at hk
    injection hk
  | none =>
    cases r' with
    | none => rfl
    | some M' =>
      have hM := (h4' M').1 hr'
      have : ∃ M, Message.fromIrc m = .ok (some M) := by
        cases M' with
        | other m' => exact ⟨.other m, (h4 _).2 ⟨hM.1, fun m' h => by injection h with h; exact h.symm⟩⟩
        | _ => exact ⟨_, (h4 _).2 ⟨hM.1, fun m' h => by cases h⟩⟩
      obtain ⟨M, hMM⟩ := this
      rw [hr] at hMM
      cases hMM

example := C117_typed .scalar (.simd .sse2 3) sampleRoomState (utf8_of sampleRoomState_ok)
  (within_of sampleRoomState_ok).len (by decide +kernel) _ (given_eq _ sampleRoomState_msg) _ (got_eq _ (by decide +kernel))

/-- C117, the exception: a ROOMSTATE with too many minutes makes a debug build panic and not a release build. -/
theorem C117_overflow : Message.parse ⟨.scalar, true⟩ sampleOverflow = .error .overflow ∧
    Message.parse ⟨.scalar, false⟩ sampleOverflow = .ok (some (.roomState
      ⟨b!"#c", b!"1", none, some (.enabled (some 9223372036854775860000000000)), none, none, none⟩)) :=
  ⟨C22_negation, by decide +kernel⟩

/-- C117: so a release build of a program does what a debug build of it does, on whatever processors they run: connecting
gives the same, and the calls of every program that does not ask of a message whether it was built with overflow checks
(the note that the model makes there and that Rust does not have) give the same and do the same, if the lines that arrive are
ordinary. -/
theorem C117_program (tp tp' : TagParser) (w : World) (hw : Ordinary w.script) :
    (∀ cfg, connect ⟨tp', false⟩ cfg w =
      ((connect ⟨tp, true⟩ cfg w).1.map (·.mapError uncheckedError), (connect ⟨tp, true⟩ cfg w).2)) ∧
    ∀ (p : Program), (∀ gs, p (gs.map uncheckedGave) = p gs) → ∀ n,
      p.run ⟨tp', false⟩ n [] w = ((p.run ⟨tp, true⟩ n [] w).1.map uncheckedGave, (p.run ⟨tp, true⟩ n [] w).2) := by
  have h : FreedIn ⟨tp, true⟩ ⟨tp', false⟩ w.script := by
    intro s hs
    obtain ⟨hu, hl, ht⟩ := hw s hs
    unfold FreedOn
    rw [owned_of_ref, owned_of_ref, (C117_release tp tp' s hu hl ht).1]
    cases MsgRef.parse ⟨tp, true⟩ s with
    | error f => rfl
    | ok r => cases r <;> rfl
  exact ⟨fun cfg => (Freed.connect cfg w h).1, fun p hp n => Freed.run p hp n [] w h⟩

/-- Non-vacuity: a program that receives lines and sends each one back. -/
def echoProgram : Program := fun gs =>
  match gs.getLast? with
  | some (.received (.ok (.ok m))) => some (.send (.ping m.raw))
  | some (.received _) => none
  | _ => some .recv

theorem echoProgram_plain (gs : List Gave) : echoProgram (gs.map uncheckedGave) = echoProgram gs := by
  unfold echoProgram
  rw [List.getLast?_map]
  cases gs.getLast? with
  | none => rfl
  | some g =>
    rcases g with _ | r | r
    · rfl
    · rcases r with _ | _ | _ <;> rfl
    · rcases r with _ | _ | _ <;> rfl

example (tp tp' : TagParser) := (C117_program tp tp' (sampleWorld [.line (b!"PING :tmi.twitch.tv"), .accept 1000, .eof])
  (by
    intro s hs
    have : s = b!"PING :tmi.twitch.tv" := by simpa [sampleWorld] using hs
    subst this
    exact ⟨.of_ascii (by decide), by decide, by decide⟩)).2 echoProgram echoProgram_plain
example : (echoProgram.run ⟨.scalar, true⟩ 10 [] (sampleWorld [.line (b!"PING :tmi.twitch.tv"), .accept 1000, .eof])).2.log
    = [.took (b!"PING :tmi.twitch.tv"), .wrote (b!"PING :PING :tmi.twitch.tv\r\n")] := by decide +kernel

end Tmi.Props
