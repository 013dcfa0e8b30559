/-
Property C101: a program that keeps track of a channel knows what is the case there.
-/
import Verif.Spec.Track
import Verif.Props.Happen

namespace Tmi.Props
open Tmi.Model Tmi.Spec Tmi.Proofs

/-! ## C101: keeping track of channels -/

/-- What is known about the settings is right; all of it is known if all of it was told. -/
def RulesRight (r : Rules) (k : KnownRules) : Prop :=
  (∀ x, k.emoteOnly = some x → x = r.emoteOnly) ∧ (∀ x, k.followersOnly = some x → x = r.followers.read) ∧
  (∀ x, k.r9k = some x → x = r.unique) ∧ (∀ x, k.slow = some x → x = r.slow * 1000000000) ∧
  (∀ x, k.subsOnly = some x → x = r.subsOnly)

/-- The program knows what is the case. -/
structure Knows (told : Bytes → Bool) (rooms : Rooms) (k : Bytes → RoomNotes) : Prop where
  posts : ∀ c, (k (HASH :: c)).posts = (rooms c).posts
  members : ∀ c, (k (HASH :: c)).members = (rooms c).members
  right : ∀ c, RulesRight (rooms c).rules (k (HASH :: c)).rules
  rules : ∀ c, told c = true → (k (HASH :: c)).rules = (rooms c).rules.known

theorem change_hash {α : Type} (f : Bytes → α) (c c' : Bytes) (g : α → α) :
    change f (HASH :: c) g (HASH :: c') = change (fun c => f (HASH :: c)) c g c' := by
  simp [change]

theorem or_ifNew {α β : Type} [DecidableEq α] (f : α → β) (old new : α) :
    ((ifNew old new).map f).or (some (f old)) = some (f new) := by
  unfold ifNew
  split
  · subst new; rfl
  · rfl

theorem right_ifNew {α β : Type} [DecidableEq α] (f : α → β) (old new : α) (o : Option β) (h : ∀ x, o = some x → x = f old) :
    ∀ x, ((ifNew old new).map f).or o = some x → x = f new := by
  unfold ifNew
  intro x
  split
  · subst new; simpa using h x
  · simp [eq_comm]

/-- What is known after some settings were told. -/
def updated (old new : Rules) (k : KnownRules) : KnownRules :=
  { emoteOnly := (ifNew old.emoteOnly new.emoteOnly).or k.emoteOnly
    followersOnly := ((ifNew old.followers new.followers).map (·.read)).or k.followersOnly
    r9k := (ifNew old.unique new.unique).or k.r9k
    slow := ((ifNew old.slow new.slow).map (· * 1000000000)).or k.slow
    subsOnly := (ifNew old.subsOnly new.subsOnly).or k.subsOnly }

theorem updated_known (old new : Rules) : updated old new old.known = new.known := by
  have h1 := or_ifNew id old.emoteOnly new.emoteOnly
  have h2 := or_ifNew (·.read) old.followers new.followers
  have h3 := or_ifNew id old.unique new.unique
  have h4 := or_ifNew (· * 1000000000) old.slow new.slow
  have h5 := or_ifNew id old.subsOnly new.subsOnly
  simp only [Option.map_id, id] at h1 h3 h5
  simp only [updated, Rules.known, h1, h2, h3, h4, h5]

theorem updated_right {old new : Rules} {k : KnownRules} (h : RulesRight old k) : RulesRight new (updated old new k) := by
  have h1 := right_ifNew id old.emoteOnly new.emoteOnly _ h.1
  have h2 := right_ifNew (·.read) old.followers new.followers _ h.2.1
  have h3 := right_ifNew id old.unique new.unique _ h.2.2.1
  have h4 := right_ifNew (· * 1000000000) old.slow new.slow _ h.2.2.2.1
  have h5 := right_ifNew id old.subsOnly new.subsOnly _ h.2.2.2.2
  simp only [Option.map_id, id] at h1 h3 h5
  exact ⟨h1, h2, h3, h4, h5⟩

theorem known_right (r : Rules) : RulesRight r r.known := by
  unfold RulesRight Rules.known
  simp [eq_comm]

/-- A change of messages or members. -/
theorem knows_change {told : Bytes → Bool} {rooms : Rooms} {k : Bytes → RoomNotes} (h : Knows told rooms k) {c : Bytes} {d : Move}
    {f : Room → Room} {g : RoomNotes → RoomNotes} (hd : rooms.after d = change rooms c f)
    (hp : ∀ r r', r'.posts = r.posts → (g r').posts = (f r).posts)
    (hm : ∀ r r', r'.members = r.members → (g r').members = (f r).members)
    (hr : ∀ r r', ((f r).rules, (g r').rules) = (r.rules, r'.rules)) (ht : ∀ c, d.tells c = false) :
    Knows (fun c => told c || d.tells c) (rooms.after d) (change k (HASH :: c) g) := by
  have hr := fun r r' => Prod.mk.inj (hr r r')
  rw [hd]
  have e : ∀ c', change k (HASH :: c) g (HASH :: c') = if c' = c then g (k (HASH :: c)) else k (HASH :: c') := by
    intro c'; rw [change_hash]; rfl
  constructor <;> intro c' <;> rw [e] <;> by_cases hcc : c' = c
  · subst c'; simp only [change, if_true]; exact hp _ _ (h.posts _)
  · simp only [change, if_neg hcc]; exact h.posts _
  · subst c'; simp only [change, if_true]; exact hm _ _ (h.members _)
  · simp only [change, if_neg hcc]; exact h.members _
  · subst hcc; simp only [change, if_true]; rw [(hr _ (k (HASH :: c'))).1, (hr (rooms c') _).2]; exact h.right _
  · simp only [change, if_neg hcc]; exact h.right _
  · subst hcc; simp only [change, if_true, ht, Bool.or_false]; rw [(hr _ (k (HASH :: c'))).1, (hr (rooms c') _).2]; exact h.rules _
  · simp only [change, if_neg hcc, ht, Bool.or_false]; exact h.rules _

theorem knows_step {told : Bytes → Bool} {rooms : Rooms} {k : Bytes → RoomNotes} (h : Knows told rooms k) {d : Move} (hd : d.Ok)
    {m : Message} (hm : SpokenRead (rooms.says d) m) :
    Knows (fun c => told c || d.tells c) (rooms.after d) (note k m) := by
  have hp := h.posts
  have hmem := h.members
  cases d with
  | write c =>
    obtain ⟨p, rfl, R⟩ := hm
    have e : note k (.privmsg p) = change k (HASH :: c.channel) fun r =>
        { r with posts := r.posts ++ [⟨c.id, c.userId, c.text, c.action⟩] } := by
      simp only [note, R.channel, R.id, R.senderId, R.text, R.isAction]
    rw [e]
    refine knows_change h (by rw [Rooms.after]) ?_ ?_ ?_ ?_
    · intro r r' hp; simp only [hp]
    · intro r r' hm; exact hm
    · intro _ _; rfl
    · intro _; rfl
  | clear p =>
    obtain ⟨v, rfl, ⟨h1, -⟩, h2⟩ := hm
    have e : note k (.clearChat v) = change k (HASH :: p.channel) fun r => { r with posts := [] } := by
      simp only [note, h1, h2]
    rw [e]
    refine knows_change h (by rw [Rooms.after]) ?_ ?_ ?_ ?_
    · intro r r' hp; rfl
    · intro r r' hm; exact hm
    · intro _ _; rfl
    · intro _; rfl
  | ban p user userId =>
    obtain ⟨v, rfl, ⟨h1, -⟩, h2⟩ := hm
    have e : note k (.clearChat v) = change k (HASH :: p.channel) fun r =>
        { r with posts := r.posts.filter (·.author ≠ userId) } := by
      simp only [note, h1, h2]
    rw [e]
    refine knows_change h (by rw [Rooms.after]) ?_ ?_ ?_ ?_
    · intro r r' hp; simp only [hp]
    · intro r r' hm; exact hm
    · intro _ _; rfl
    · intro _; rfl
  | timeOut p user userId n =>
    obtain ⟨v, rfl, ⟨h1, -⟩, h2⟩ := hm
    have e : note k (.clearChat v) = change k (HASH :: p.channel) fun r =>
        { r with posts := r.posts.filter (·.author ≠ userId) } := by
      simp only [note, h1, h2]
    rw [e]
    refine knows_change h (by rw [Rooms.after]) ?_ ?_ ?_ ?_
    · intro r r' hp; simp only [hp]
    · intro r r' hm; exact hm
    · intro _ _; rfl
    · intro _; rfl
  | delete p author id text action =>
    obtain ⟨v, rfl, ⟨h1, -⟩, -, h2, -⟩ := hm
    have e : note k (.clearMsg v) = change k (HASH :: p.channel) fun r =>
        { r with posts := r.posts.filter (·.id ≠ id) } := by
      simp only [note, h1, h2]
    rw [e]
    refine knows_change h (by rw [Rooms.after]) ?_ ?_ ?_ ?_
    · intro r r' hp; simp only [hp]
    · intro r r' hm; exact hm
    · intro _ _; rfl
    · intro _; rfl
  | enter login channel =>
    obtain ⟨v, rfl, h1, h2⟩ := hm
    have e : note k (.join v) = change k (HASH :: channel) fun r =>
        { r with members := change r.members login fun _ => true } := by
      simp only [note, h1, h2]
    rw [e]
    refine knows_change h (by rw [Rooms.after]) ?_ ?_ ?_ ?_
    · intro r r' hp; exact hp
    · intro r r' hm; simp only [hm]
    · intro _ _; rfl
    · intro _; rfl
  | leave login channel =>
    obtain ⟨v, rfl, h1, h2⟩ := hm
    have e : note k (.part v) = change k (HASH :: channel) fun r =>
        { r with members := change r.members login fun _ => false } := by
      simp only [note, h1, h2]
    rw [e]
    refine knows_change h (by rw [Rooms.after]) ?_ ?_ ?_ ?_
    · intro r r' hp; exact hp
    · intro r r' hm; simp only [hm]
    · intro _ _; rfl
    · intro _; rfl
  | setRules channel channelId r =>
    obtain ⟨v, rfl, R⟩ := hm
    have e : ∀ c, note k (.roomState v) (HASH :: c) =
        if c = channel then { k (HASH :: c) with rules := updated (rooms channel).rules r (k (HASH :: channel)).rules } else k (HASH :: c) := by
      intro c
      simp only [note, R.channel, R.emoteOnly, R.followers, R.unique, R.slow, R.subsOnly, change_hash]
      simp only [change]
      split
      · subst c; rfl
      · rfl
    constructor
    · intro c
      rw [e]
      have := h.posts c
      by_cases hcc : c = channel <;> simp_all [Rooms.after, change]
    · intro c
      rw [e]
      have := h.members c
      by_cases hcc : c = channel <;> simp_all [Rooms.after, change]
    · intro c
      rw [e]
      by_cases hcc : c = channel
      · subst c
        rw [if_pos rfl]
        simp only [Rooms.after, change, if_true]
        exact updated_right (h.right channel)
      · rw [if_neg hcc]
        simp only [Rooms.after, change, if_neg hcc]
        exact h.right c
    · intro c ht
      simp only [Move.tells, Bool.or_false] at ht
      rw [e]
      by_cases hcc : c = channel
      · subst c
        rw [if_pos rfl]
        simp only [Rooms.after, change, if_true]
        rw [h.rules channel ht]
        exact updated_known _ _
      · rw [if_neg hcc]
        simp only [Rooms.after, change, if_neg hcc]
        exact h.rules c ht
  | tellRules channel channelId =>
    obtain ⟨v, rfl, R⟩ := hm
    have e : ∀ c, note k (.roomState v) (HASH :: c) =
        if c = channel then { k (HASH :: c) with rules := (rooms channel).rules.known } else k (HASH :: c) := by
      intro c
      simp only [note, R.channel, R.emoteOnly, R.followers, R.unique, R.slow, R.subsOnly, change_hash]
      simp only [change]
      split
      · subst c; rfl
      · rfl
    constructor
    · intro c
      rw [e]
      have := h.posts c
      by_cases hcc : c = channel <;> simp_all [Rooms.after]
    · intro c
      rw [e]
      have := h.members c
      by_cases hcc : c = channel <;> simp_all [Rooms.after]
    · intro c
      rw [e]
      by_cases hcc : c = channel
      · subst c
        rw [if_pos rfl]
        exact known_right _
      · rw [if_neg hcc]
        exact h.right c
    · intro c ht
      rw [e]
      by_cases hcc : c = channel
      · subst c
        rw [if_pos rfl]
        rfl
      · rw [if_neg hcc]
        refine h.rules c ?_
        simpa [Move.tells, Ne.symm hcc] using ht
  | other s =>
    have e : note k m = k := by
      cases s <;> first | exact absurd hd id | (obtain ⟨v, rfl, -⟩ := hm; rfl)
    rw [e]
    exact ⟨h.posts, h.members, h.right, fun c ht => h.rules c (by simpa [Move.tells] using ht)⟩

theorem knows_all (b : Build) : ∀ (ds : List Move) (ms : List MsgOwned) (told : Bytes → Bool) (rooms : Rooms) (k : Bytes → RoomNotes),
    Knows told rooms k → (∀ d ∈ ds, d.Ok) → ms.length = (rooms.saysAll ds).length →
    (∀ (i : Nat) (c : Spoken) (m : MsgOwned), (rooms.saysAll ds)[i]? = some c → ms[i]? = some m →
        ∃ M, m.asTyped = .ok (some M) ∧ SpokenRead c M) →
    ∀ n, Knows (fun c => told c || (ds.take n).any (Move.tells c)) (rooms.afterAll (ds.take n)) (noteAll k (ms.take n))
  | ds, ms, told, rooms, k, h, hd, hl, hm, 0 => by simpa [Rooms.afterAll, noteAll] using h
  | [], ms, told, rooms, k, h, hd, hl, hm, n + 1 => by
    cases ms with
    | nil => simpa [Rooms.afterAll, noteAll] using h
    | cons m ms => simp [Rooms.saysAll] at hl
  | d :: ds, ms, told, rooms, k, h, hd, hl, hm, n + 1 => by
    cases ms with
    | nil => simp [Rooms.saysAll] at hl
    | cons m ms =>
      obtain ⟨M, h1, h2⟩ := hm 0 _ m rfl rfl
      have := knows_all b ds ms _ (rooms.after d) (note k M) (knows_step h (hd d (by simp)) h2) (fun d' h' => hd d' (by simp [h']))
        (by simpa [Rooms.saysAll] using hl) (fun i c m h1 h2 => hm (i + 1) c m h1 h2) n
      simp only [List.take_succ_cons, noteAll, Rooms.afterAll, List.foldl_cons, List.any_cons, h1] at this ⊢
      simpa only [Bool.or_assoc] using this

/-- C101: whatever is done in the channels of a server, and however what the server says about it is cut into pieces: a
program that looks at the typed messages with their getters knows after each message which messages can be seen, who
joined, and (of the channels of which the server told all settings, as it does when a client joins) all settings, although
the server tells only those that change. -/
theorem C101_tracks (b : Build) (rooms : Rooms) (ds : List Move)
    (h0 : ∀ c, (rooms c).posts = [] ∧ (rooms c).members = fun _ => false)
    (hd : ∀ d ∈ ds, d.Ok) (hc : ∀ c ∈ rooms.saysAll ds, c.Ok ∧ Readable b c.line ∧ LF ∉ c.line) (net : List Net)
    (hn : arrived net = (rooms.saysAll ds).flatMap fun c => c.line ++ [CR, LF]) (he : ending net = .open_) :
    ∃ ms : List MsgOwned, (∃ N, ∀ n, N ≤ n → recvPolls b n .new net = ms.map fun m => .ok (.ok m)) ∧
      ms.length = ds.length ∧
      ∀ n c,
        let known := noteAll (fun _ => ⟨[], fun _ => false, ⟨none, none, none, none, none⟩⟩) (ms.take n) (HASH :: c)
        let room := rooms.afterAll (ds.take n) c
        known.posts = room.posts ∧ known.members = room.members ∧
        ((∃ d ∈ ds.take n, ∃ id, d = .tellRules c id) → known.rules = room.rules.known) := by
  obtain ⟨ms, h1, h2, h3⟩ := C98_received b (rooms.saysAll ds) hc net hn he
  have hlen : ∀ (ds : List Move) (rooms : Rooms), (rooms.saysAll ds).length = ds.length := by
    intro ds
    induction ds with
    | nil => intro _; rfl
    | cons d ds ih => intro rooms; simp [Rooms.saysAll, ih]
  refine ⟨ms, h1, h2.trans (hlen _ _), fun n c => ?_⟩
  have K := knows_all b ds ms (fun _ => false) rooms (fun _ => ⟨[], fun _ => false, ⟨none, none, none, none, none⟩⟩)
    ⟨fun c => (h0 c).1.symm, fun c => (h0 c).2.symm, fun c => ⟨by simp, by simp, by simp, by simp, by simp⟩, by simp⟩
    hd h2 h3 n
  refine ⟨K.posts c, K.members c, ?_⟩
  rintro ⟨d, hd, id, rfl⟩
  refine K.rules c ?_
  simp only [Bool.false_or, List.any_eq_true]
  exact ⟨_, hd, by simp [Move.tells]⟩

/-! ### Sample -/

/-- Nobody has joined, and nothing was written. -/
def emptyRooms : Rooms := fun _ => ⟨[], fun _ => false, ⟨false, .off, false, 0, true⟩⟩

/-- A client joins the channel `c`; Bob and Ann write; the slow mode is changed; one message is deleted, Bob is timed out. -/
def sampleMoves : List Move :=
  [.tellRules (b!"c") (b!"1"), .enter (b!"bob") (b!"c"), .enter (b!"ann") (b!"c"), .write servedChat,
   .write { servedChat with id := b!"m5", userId := b!"8", login := b!"ann", text := b!"hi", action := false },
   .setRules (b!"c") (b!"1") ⟨false, .minutes 10, false, 30, true⟩,
   .write { servedChat with id := b!"m6" },
   .delete ⟨b!"c", b!"1", 1594545155040⟩ (b!"bob") (b!"m1") (b!":) @x #y") true,
   .other (.refused (b!"no")),
   .timeOut ⟨b!"c", b!"1", 1594545155041⟩ (b!"bob") (b!"7") 600,
   .leave (b!"bob") (b!"c")]

theorem annChat_ok : Chat.Ok { servedChat with
    id := b!"m5", userId := b!"8", login := b!"ann", text := b!"hi", action := false } :=
  { servedChat_ok with
    ids := by unfold Unescaped; decide
    login := show Login (b!"ann") by unfold Login Unescaped; decide
    text := by rintro - ⟨body, h⟩; exact absurd (List.cons.inj h).1 (by decide) }

theorem m6Chat_ok : Chat.Ok { servedChat with id := b!"m6" } :=
  { servedChat_ok with ids := by unfold Unescaped; decide }

theorem sampleMoves_ok (b : Build) : (∀ d ∈ sampleMoves, d.Ok) ∧
    ∀ c ∈ emptyRooms.saysAll sampleMoves, c.Ok ∧ Readable b c.line ∧ LF ∉ c.line := by
  constructor
  · simp only [sampleMoves, List.mem_cons, List.not_mem_nil, or_false, forall_eq_or_imp, forall_eq]
    exact ⟨trivial, trivial, trivial, trivial, trivial, trivial, trivial, trivial, trivial, trivial, trivial⟩
  · have hl : ∀ c ∈ emptyRooms.saysAll sampleMoves, checkLine c.line = true ∧ LF ∉ c.line := by decide +kernel
    have ho : ∀ c ∈ emptyRooms.saysAll sampleMoves, c.Ok := by
      simp only [sampleMoves, Rooms.saysAll, List.mem_cons, List.not_mem_nil, or_false, forall_eq_or_imp, forall_eq]
      refine ⟨?_, ?_, ?_, servedChat_ok, annChat_ok, ?_, m6Chat_ok, ?_, trivial, ?_, ?_⟩
      · exact show Settings.Ok _ from ⟨by decide, by unfold Unescaped; decide, by rintro n ⟨⟩, by rintro n ⟨⟩; decide⟩
      · show Login _ ∧ _; unfold Login Unescaped; decide
      · show Login _ ∧ _; unfold Login Unescaped; decide
      · exact show Settings.Ok _ from ⟨by decide, by unfold Unescaped; decide, by rintro n ⟨⟩; decide, by rintro n ⟨⟩; decide⟩
      · exact ⟨⟨by decide, by unfold Unescaped; decide, by unfold InChrono; decide⟩, by unfold Unescaped; decide,
          by unfold Unescaped; decide, by intro h; cases h⟩
      · exact ⟨⟨by decide, by unfold Unescaped; decide, by unfold InChrono; decide⟩, by unfold Unescaped; decide, by decide⟩
      · show Login _ ∧ _; unfold Login Unescaped; decide
    exact fun c hc => ⟨ho c hc, readable_of (hl c hc).1 b, (hl c hc).2⟩

example (b : Build) (net : List Net)
    (hn : arrived net = (emptyRooms.saysAll sampleMoves).flatMap fun c => c.line ++ [CR, LF]) (he : ending net = .open_) :=
  C101_tracks b emptyRooms sampleMoves (fun _ => ⟨rfl, rfl⟩) (sampleMoves_ok b).1 (sampleMoves_ok b).2 net hn he

/-- The settings that changed are told, and no others. -/
example : ((emptyRooms.saysAll sampleMoves)[5]?).map Spoken.line =
    some (b!"@followers-only=10;room-id=1;slow=30 :tmi.twitch.tv ROOMSTATE #c") := by decide +kernel

/-- What is the case in the end. -/
example : (emptyRooms.afterAll sampleMoves (b!"c")).posts = [⟨b!"m5", b!"8", b!"hi", false⟩] ∧
    (emptyRooms.afterAll sampleMoves (b!"c")).members (b!"ann") = true ∧
    (emptyRooms.afterAll sampleMoves (b!"c")).members (b!"bob") = false ∧
    (emptyRooms.afterAll sampleMoves (b!"c")).rules.known =
      ⟨some false, some (.enabled (some 600000000000)), some false, some 30000000000, some true⟩ := by decide +kernel

/-- What the program knows in the end, from the lines. -/
def sampleNotes : RoomNotes :=
  noteAll (fun _ => ⟨[], fun _ => false, ⟨none, none, none, none, none⟩⟩)
    ((emptyRooms.saysAll sampleMoves).map fun c => parsed ⟨.simd .sse2 5, true⟩ c.line) (b!"#c")

example : sampleNotes.posts = [⟨b!"m5", b!"8", b!"hi", false⟩] ∧ sampleNotes.members (b!"ann") = true ∧
    sampleNotes.rules = ⟨some false, some (.enabled (some 600000000000)), some false, some 30000000000, some true⟩ := by
  decide +kernel

end Tmi.Props
