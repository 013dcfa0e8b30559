/-
The parser once more, counting its work: a step for every byte that is looked at, every vector that is loaded or compared
with a byte, every turn of a loop over such vectors, and every tag that is stored or copied.
-/
import Verif.Model.Irc
import Verif.Model.Escape
import Verif.Model.Msg

namespace Tmi.Model
open Tmi.Spec (enc)

namespace Steps

/-- A computation with the number of its steps.  The code of src/irc.rs:56-80 and what it calls. -/
structure Run (α : Type) where
  steps : Nat
  out : R α

/-- One computation after another: if the first panics (src/irc/tags.rs:283-286), the second does not take place. -/
def Run.bind {α β : Type} (x : Run α) (f : α → Run β) : Run β :=
  match x.out with
  | .ok a => ⟨x.steps + (f a).steps, (f a).out⟩
  | .error e => ⟨x.steps, .error e⟩

/-- Sequencing, for all of the below (src/irc.rs:60-80). -/
instance : Monad Run where
  pure a := ⟨0, .ok a⟩
  bind := Run.bind

/-- Something that takes `n` steps.  What takes none is the arithmetic on positions and the slicing of strings, e.g.
src/irc/tags/scalar.rs:3-8. -/
def pay {α : Type} (n : Nat) (x : R α) : Run α := ⟨n, x⟩

/-- `str::find` with a character (src/irc/command.rs:168, src/irc/channel.rs:9, src/irc.rs:159): looks at the bytes in
turn until it is found. -/
def find (x : UInt8) : Bytes → Run (Option Nat)
  | [] => pay 0 (.ok none)
  | y :: t => do
    pay 1 (.ok ())
    if y = x then return some 0
    else return (← find x t).map (· + 1)

/-- The loop of `tags::scalar::parse` (src/irc/tags/scalar.rs:10-47). -/
def scalarLoop (checks : Bool) : (rest : Bytes) → (offset : Nat) → TState → List TagPair → Run (Nat × List TagPair)
  | [], offset, _, tags => return (offset, tags)
  | c :: rest, offset, state, tags => do
    pay 1 (.ok ())
    if c = EQS then
      match state with
      | .key ks => scalarLoop checks rest (offset + 1) (.value ks offset) tags
      | .value ks ke => scalarLoop checks rest (offset + 1) (.value ks ke) tags
    else if c = SEMI then
      match state with
      | .value ks ke => do
        let p ← pay 0 (mkPair checks ks ke offset)
        let tags ← pay 1 (pushTag tags p)
        scalarLoop checks rest (offset + 1) (.key (offset + 1)) tags
      | .key ks => scalarLoop checks rest (offset + 1) (.key ks) tags
    else if c = SP then
      match state with
      | .value ks ke => do
        let p ← pay 0 (mkPair checks ks ke offset)
        let tags ← pay 1 (pushTag tags p)
        return (offset, tags)
      | .key _ => return (offset, tags)
    else scalarLoop checks rest (offset + 1) state tags

/-- `tags::scalar::parse` (src/irc/tags/scalar.rs:3-52).  At the end the tags are copied (src/irc/tags.rs:288-292). -/
def scalarParse (checks : Bool) (src : Bytes) (pos : Nat) : Run (Option (List TagPair) × Nat) := do
  let s ← pay 1 (strFrom src pos)
  match s with
  | c :: r =>
    if c = AT then do
      let (offset, tags) ← scalarLoop checks r 0 (.key 0) []
      pay tags.length (.ok (some tags, pos + (offset + 2)))
    else return (none, pos)
  | [] => return (none, pos)

/-- Phase 3 of `find_first` (src/irc/tags/simd.rs:126-171): four vectors are loaded and compared. -/
def findUnrolled (B : Backend) (d : Slice) (byte : UInt8) (offset : Nat) : Run Phase :=
  if offset + 4 * B.size < d.bytes.length then do
    let chunk0 ← pay 1 (loadAligned B d (offset + B.size * 0))
    let chunk1 ← pay 1 (loadAligned B d (offset + B.size * 1))
    let chunk2 ← pay 1 (loadAligned B d (offset + B.size * 2))
    let chunk3 ← pay 1 (loadAligned B d (offset + B.size * 3))
    pay 4 (.ok ())
    match chunkMatch B chunk0 byte with
    | some p => return .found (offset + p + 0 * B.size)
    | none =>
    match chunkMatch B chunk1 byte with
    | some p => return .found (offset + p + 1 * B.size)
    | none =>
    match chunkMatch B chunk2 byte with
    | some p => return .found (offset + p + 2 * B.size)
    | none =>
    match chunkMatch B chunk3 byte with
    | some p => return .found (offset + p + 3 * B.size)
    | none => findUnrolled B d byte (offset + B.size * 4)
  else return .next offset
termination_by d.bytes.length - offset
decreasing_by have := B.size_pos; omega

/-- Phase 4 of `find_first` (src/irc/tags/simd.rs:173-185): one vector at a time. -/
def findAligned (B : Backend) (d : Slice) (byte : UInt8) (offset : Nat) : Run Phase :=
  if offset + B.size ≤ d.bytes.length then do
    let chunk ← pay 1 (loadAligned B d offset)
    pay 1 (.ok ())
    match chunkMatch B chunk byte with
    | some p => return .found (offset + p)
    | none => findAligned B d byte (offset + B.size)
  else return .next offset
termination_by d.bytes.length - offset
decreasing_by have := B.size_pos; omega

/-- The loop for short data (src/irc/tags/simd.rs:109-113). -/
def scalarFind (byte : UInt8) : (rest : Bytes) → (i : Nat) → Run (Option Nat)
  | [], _ => return none
  | b :: rest, i => do
    pay 1 (.ok ())
    if b = byte then return some i else scalarFind byte rest (i + 1)

/-- `find_first` (src/irc/tags/simd.rs:106-203). -/
def findFirst (B : Backend) (d : Slice) (byte : UInt8) : Run (Option Nat) :=
  if d.bytes.length < B.size then scalarFind byte d.bytes 0
  else do
    let chunk ← pay 1 (loadUnaligned B d 0)
    pay 1 (.ok ())
    match chunkMatch B chunk byte with
    | some p => return some p
    | none =>
    let alignedStartAddr ← pay 0 (usub (d.addr + B.size) (d.addr % B.size))
    let offset ← pay 0 (usub alignedStartAddr d.addr)
    match ← findUnrolled B d byte offset with
    | .found i => return some i
    | .next offset =>
    match ← findAligned B d byte offset with
    | .found i => return some i
    | .next offset =>
    if offset < d.bytes.length then do
      let offset ← pay 0 (usub d.bytes.length B.size)
      let chunk ← pay 1 (loadUnaligned B d offset)
      pay 1 (.ok ())
      match chunkMatch B chunk byte with
      | some p => return some (offset + p)
      | none => return none
    else return none

/-- The `loop` of `parse_chunk` (src/irc/tags/simd.rs:55-95). -/
def chunkLoop (checks : Bool) (B : Backend) (offset : Nat) :
    (fuel : Nat) → (eqm semi : B.Mask) → TState → List TagPair → Run (TState × List TagPair)
  | 0, _, _, _, _ => pay 0 (.error .diverge)
  | fuel + 1, eqm, semi, state, tags => do
    pay 1 (.ok ())
    match state with
    | .key ks =>
      if !B.hasMatch eqm then return (.key ks, tags)
      else do
        let m := B.firstMatch eqm
        let eqm ← pay 0 (B.clearTo eqm m)
        let semi ← pay 0 (B.clearTo semi m)
        let pos := offset + B.asIndex m
        chunkLoop checks B offset fuel eqm semi (.value ks pos) tags
    | .value ks ke =>
      if !B.hasMatch semi then return (.value ks ke, tags)
      else do
        let m := B.firstMatch semi
        let eqm ← pay 0 (B.clearTo eqm m)
        let semi ← pay 0 (B.clearTo semi m)
        let pos := offset + B.asIndex m
        let p ← pay 0 (mkPair checks ks ke pos)
        let tags ← pay 1 (pushTag tags p)
        chunkLoop checks B offset fuel eqm semi (.key (pos + 1)) tags

/-- `parse_chunk` (src/irc/tags/simd.rs:51-96): the vector is compared with two bytes. -/
def parseChunk (checks : Bool) (B : Backend) (offset : Nat) (chunk : Bytes) (state : TState) (tags : List TagPair) :
    Run (TState × List TagPair) := do
  pay 2 (.ok ())
  chunkLoop checks B offset (B.size + 1) (B.movemask (vecEq chunk EQS)) (B.movemask (vecEq chunk SEMI)) state tags

/-- The `while` loop of `tags::simd::parse` (src/irc/tags/simd.rs:16-20). -/
def simdLoop (checks : Bool) (B : Backend) (rem : Slice) (offset : Nat) (state : TState) (tags : List TagPair) :
    Run (Nat × TState × List TagPair) :=
  if offset + B.size < rem.bytes.length then do
    let chunk ← pay 1 (loadUnaligned B rem offset)
    let (state, tags) ← parseChunk checks B offset chunk state tags
    simdLoop checks B rem (offset + B.size) state tags
  else return (offset, state, tags)
termination_by rem.bytes.length - offset
decreasing_by have := B.size_pos; omega

/-- `tags::simd::parse` (src/irc/tags/simd.rs:4-42).  The last vector is copied byte by byte
(src/irc/wide/x86_64/sse2.rs:48-55). -/
def simdParse (checks : Bool) (B : Backend) (addr : Nat) (src : Bytes) (pos : Nat) :
    Run (Option (List TagPair) × Nat) := do
  let s ← pay 1 (strFrom src pos)
  match s with
  | c :: r =>
    if c = AT then do
      let d : Slice := ⟨addr + pos + 1, r⟩
      match ← findFirst B d SP with
      | none => return (none, pos)
      | some stop =>
        let rem ← pay 0 (if stop ≤ r.length then (.ok ⟨d.addr, r.take stop⟩ : R Slice) else .error .index)
        let (offset, state, tags) ← simdLoop checks B rem 0 (.key 0) []
        let left ← pay 0 (usub rem.bytes.length offset)
        let tags ←
          if 0 < left then do
            let chunk ← pay B.size (loadUnalignedRemainder B rem offset)
            let (state, tags) ← parseChunk checks B offset chunk state tags
            match state with
            | .value ks ke => do
              let p ← pay 0 (mkPair checks ks ke rem.bytes.length)
              pay 1 (pushTag tags p)
            | .key _ => pure tags
          else pure tags
        pay tags.length (.ok (some tags, pos + (stop + 2)))
    else return (none, pos)
  | [] => return (none, pos)

/-- `tags::parse` (src/irc/tags.rs:295-303). -/
def parseTags (b : Build) (src : Bytes) (pos : Nat) : Run (Option (List TagPair) × Nat) :=
  match b.tagParser with
  | .scalar => scalarParse b.checks src pos
  | .simd arch addr => simdParse b.checks arch.backend addr src pos

/-- The loop of src/irc/prefix.rs:64-85. -/
def prefixLoop (start : Nat) : (rest : Bytes) → (i hostStart : Nat) → (nick : Option Span) →
    (nickEnd : Option Nat) → (user : Option Span) → Run (Option (RawPrefix × Nat))
  | [], _, _, _, _, _ => return none
  | c :: rest, i, hostStart, nick, nickEnd, user => do
    pay 1 (.ok ())
    if c = SP then return some (⟨nick, user, Span.mk' hostStart i⟩, i + 1)
    else if c = AT then
      match nickEnd with
      | some ne => prefixLoop start rest (i + 1) (i + 1) nick nickEnd (some (Span.mk' (ne + 1) i))
      | none => prefixLoop start rest (i + 1) (i + 1) (some (Span.mk' start i)) nickEnd user
    else if c = BANG then
      prefixLoop start rest (i + 1) hostStart (some (Span.mk' start i)) (some i) user
    else prefixLoop start rest (i + 1) hostStart nick nickEnd user

/-- `prefix::parse` (src/irc/prefix.rs:49-88). -/
def parsePrefix (src : Bytes) (pos : Nat) : Run (Option RawPrefix × Nat) := do
  let s ← pay 1 (strFrom src pos)
  if !startsWith COLON s then return (none, pos)
  else
    let start := pos + 1
    match ← prefixLoop start (src.drop start) start start none none none with
    | some (p, pos') => return (some p, pos')
    | none => return (none, pos)

/-- `==` of strings, as in src/irc/command.rs:177-203 and src/irc.rs:147: as many bytes are looked at as the shorter of
the two has, and one step is for the lengths. -/
def same (x y : Bytes) : Run Bool := pay (1 + min x.length y.length) (.ok (x == y))

/-- Comparing a token with one name after the other (src/irc/command.rs:177-201).  Simplification: a compiler is free to
do better. -/
def lookup (token : Bytes) : List (Bytes × RawCommand) → Run (Option (Bytes × RawCommand))
  | [] => return none
  | row :: rows => do
    if ← same row.1 token then return some row else lookup token rows

/-- `command::parse` (src/irc/command.rs:167-209). -/
def parseCommand (src : Bytes) (pos : Nat) : Run (Option RawCommand × Nat) := do
  let s ← pay 0 (strFrom src pos)
  let (stop, nextPos) :=
    match ← find SP s with
    | some n => (pos + n, pos + n + 1)
    | none => (src.length, src.length)
  let token ← pay 0 (strSlice src pos stop)
  match ← lookup token commandTable with
  | some row => return (some row.2, nextPos)
  | none =>
    if !token.isEmpty then return (some (.other (Span.mk' pos stop)), nextPos)
    else return (none, pos)

/-- `channel::parse` (src/irc/channel.rs:5-24). -/
def parseChannel (src : Bytes) (pos : Nat) : Run (Option Span × Nat) := do
  let s ← pay 1 (strFrom src pos)
  if startsWith HASH s then
    let s' ← pay 0 (strFrom src pos)
    match ← find SP s' with
    | some n => return (some (Span.mk' pos (pos + n)), pos + n + 1)
    | none => return (some (Span.mk' pos src.length), src.length)
  else return (none, pos)

/-- `IrcMessageRef::parse` / `parse_inner` (src/irc.rs:56-80). -/
def parse (b : Build) (src : Bytes) : Run (Option MsgRef) := do
  let (tags?, pos) ← parseTags b src 0
  let tags := tags?.getD []
  let (pfx, pos) ← parsePrefix src pos
  let (command?, pos) ← parseCommand src pos
  match command? with
  | none => return none
  | some command =>
    let (channel, pos) ← parseChannel src pos
    let params ← pay 1 (parseParams src pos)
    return some ⟨b.checks, src, tags, pfx, command, channel, params⟩

/-- The `iter().find(..)` of `tag` (src/irc.rs:140-148). -/
def findTag (checks : Bool) (src key : Bytes) : List TagPair → Run (Option TagPair)
  | [] => return none
  | p :: ps => do
    let sp ← pay 0 (p.key checks)
    let k ← pay 0 (Span.get src sp)
    if ← same k key then return some p else findTag checks src key ps

/-- `tag` (src/irc.rs:140-148). -/
def tag (m : MsgRef) (t : Tag) : Run (Option Bytes) := do
  match ← findTag m.checks m.src t.asStr m.parts.tags with
  | none => return none
  | some p =>
    let sp ← pay 0 (p.value m.checks)
    let v ← pay 0 (Span.get m.src sp)
    return some v

/-- `text` (src/irc.rs:153-164). -/
def text (m : MsgRef) : Run (Option Bytes) := do
  match m.parts.params with
  | some sp =>
    let params ← pay 0 (sp.get m.src)
    match ← find COLON params with
    | some start => return some (← pay 0 (strFrom params (start + 1)))
    | none => return some params
  | none => return none

/-- The loop of `actually_unescape` (src/lib.rs:64-91): a step for each character. -/
def actuallyGo : List Char → (escape : Bool) → Run (List Char)
  | [], _ => return []
  | c :: cs, escape => do
    pay 1 (.ok ())
    if c = '\\' && escape then return '\\' :: (← actuallyGo cs false)
    else if c = '\\' then actuallyGo cs true
    else if c = ':' && escape then return ';' :: (← actuallyGo cs false)
    else if c = 's' && escape then return ' ' :: (← actuallyGo cs false)
    else if c = 'r' && escape then return '\r' :: (← actuallyGo cs false)
    else if c = 'n' && escape then return '\n' :: (← actuallyGo cs false)
    else if c = '⸝' then return ',' :: (← actuallyGo cs escape)
    else return c :: (← actuallyGo cs escape)

/-- `actually_unescape` (src/lib.rs:59-94): what comes before is copied. -/
def actuallyUnescape (input : Bytes) (start : Nat) : Run Bytes := do
  let head ← pay start (strSlice input 0 start)
  let tail ← pay 0 (strFrom input start)
  return head ++ enc (← actuallyGo (decode tail) false)

/-- `maybe_unescape` (src/lib.rs:48-57). -/
def maybeUnescape (value : Bytes) : Run Bytes := do
  match ← find BSLASH value with
  | some i => actuallyUnescape value i
  | none => return value

/-- The loop of `unescape` (src/irc.rs:342-368): a step for each character. -/
def unescapeGo : List Char → (escape : Bool) → Run (List Char)
  | [], _ => return []
  | c :: cs, escape => do
    pay 1 (.ok ())
    if c = ':' && escape then return ';' :: (← unescapeGo cs false)
    else if c = 's' && escape then return ' ' :: (← unescapeGo cs false)
    else if c = '\\' && escape then return '\\' :: (← unescapeGo cs false)
    else if c = 'r' && escape then return '\r' :: (← unescapeGo cs false)
    else if c = 'n' && escape then return '\n' :: (← unescapeGo cs false)
    else if c = '⸝' then return ',' :: (← unescapeGo cs escape)
    else if c = '\\' then unescapeGo cs true
    else return c :: (← unescapeGo cs escape)

/-- `unescape` (src/irc.rs:339-370). -/
def unescape (value : Bytes) : Run Bytes := do return enc (← unescapeGo (decode value) false)

/-- The pieces with a slash, cut in two there (src/msg.rs:360-363 and 365-367). -/
def cutPieces : List Bytes → Run (List (Bytes × Bytes))
  | [] => return []
  | p :: ps => do
    let cut ← find SLASH p
    let rest ← cutPieces ps
    return match cut with
      | some i => (p.take i, p.drop (i + 1)) :: rest
      | none => rest

/-- The `iter().find(..)` at src/msg.rs:372-375. -/
def findInfo (name : Bytes) : List (Bytes × Bytes) → Run (Option (Bytes × Bytes))
  | [] => return none
  | p :: ps => do
    if ← same p.1 name then return some p else findInfo name ps

/-- The `map` at src/msg.rs:368-378.  Making a badge of the data (src/msg.rs:192-211) is a comparison with each of five
names, of forty bytes, and reading a number. -/
def makeBadges (info : List (Bytes × Bytes)) : List (Bytes × Bytes) → Run (List Badge)
  | [] => return []
  | nv :: rest => do
    let extra := (← findInfo nv.1 info).map (·.2)
    pay (45 + (extra.getD []).length) (.ok ())
    let badges ← makeBadges info rest
    return (BadgeData.mk nv.1 nv.2 extra).toBadge :: badges

/-- `parse_badges` (src/msg.rs:355-380): to split a string takes a step for each byte. -/
def parseBadges (badges badgeInfo : Bytes) : Run (List Badge) :=
  if badges = [] then return []
  else do
    let info ← pay badgeInfo.length (.ok (splitOn COMMA badgeInfo))
    let info ← cutPieces info
    let list ← pay badges.length (.ok (splitOn COMMA badges))
    let list ← cutPieces list
    makeBadges info list

/-- Reading the badges of a message, in five parsers (e.g. src/msg/privmsg.rs:387-391). -/
def badgesOf (m : MsgRef) : Run (List Badge) := do
  let badges ← tag m .badges
  let info ← tag m .badgeInfo
  match badges, info with
  | some a, some b => parseBadges a b
  | _, _ => return []

end Steps

end Tmi.Model
