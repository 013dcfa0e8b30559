/-
The parser once more, with the memory that its `unsafe` code touches: the array of tags with cells that may not be
initialised, and reads without a bounds check.  What Rust leaves undefined is an outcome of its own here.
-/
import Verif.Model.Irc

namespace Tmi.Model

namespace Mem

/-- How a computation can go wrong: a panic, a read of memory that was never written, or a read outside of a slice
without a bounds check.  The latter two are undefined behaviour: the `unsafe` blocks at src/irc/tags.rs:269-281, 290 and
src/irc/prefix.rs:65. -/
inductive Stuck where
  | panic (f : Fault)
  | uninit
  | outside
deriving DecidableEq, Repr

/-- Computations over memory.  The code of src/irc.rs:56-80. -/
abbrev U := Except Stuck

/-- A part without `unsafe` code of its own.  Used for src/irc/command.rs, src/irc/channel.rs, src/irc/params.rs, and for
the vector loads (src/irc/wide), which have their own model. -/
def ofR {α : Type} : R α → U α
  | .ok a => .ok a
  | .error f => .error (.panic f)

/-- `Array<128, TagPair>` (src/irc/tags.rs:262-265): cells that may be uninitialised (`none`), and a length. -/
structure Arr where
  data : List (Option TagPair)
  len : Nat

/-- `Array::new` (src/irc/tags.rs:268-281): nothing is initialised. -/
def Arr.new : Arr := ⟨List.replicate 128 none, 0⟩

/-- `Array::push` (src/irc/tags.rs:283-286): `self.data[self.len]` is checked. -/
def Arr.push (a : Arr) (t : TagPair) : U Arr :=
  if a.len < a.data.length then .ok ⟨a.data.set a.len (some t), a.len + 1⟩ else .error (.panic .full)

/-- Reading cells as values: the `transmute` and `to_vec` at src/irc/tags.rs:290-291. -/
def readCells : List (Option TagPair) → U (List TagPair)
  | [] => .ok []
  | none :: _ => .error .uninit
  | some t :: r => do return t :: (← readCells r)

/-- `Array::to_vec` (src/irc/tags.rs:288-292): `&self.data[..self.len]` is checked, the `transmute` is not. -/
def Arr.toVec (a : Arr) : U (List TagPair) :=
  if a.len ≤ a.data.length then readCells (a.data.take a.len) else .error (.panic .index)

/-- The loop of `tags::scalar::parse` (src/irc/tags/scalar.rs:10-47): `src[offset]` is checked. -/
def scalarLoop (checks : Bool) (src : Bytes) (offset : Nat) (state : TState) (tags : Arr) : U (Nat × Arr) :=
  if offset < src.length then
    match src[offset]? with
    | none => .error (.panic .index)
    | some c =>
      if c = EQS then
        match state with
        | .key ks => scalarLoop checks src (offset + 1) (.value ks offset) tags
        | .value ks ke => scalarLoop checks src (offset + 1) (.value ks ke) tags
      else if c = SEMI then
        match state with
        | .value ks ke => do
          let p ← ofR (mkPair checks ks ke offset)
          let tags ← tags.push p
          scalarLoop checks src (offset + 1) (.key (offset + 1)) tags
        | .key ks => scalarLoop checks src (offset + 1) (.key ks) tags
      else if c = SP then
        match state with
        | .value ks ke => do
          let p ← ofR (mkPair checks ks ke offset)
          let tags ← tags.push p
          .ok (offset, tags)
        | .key _ => .ok (offset, tags)
      else scalarLoop checks src (offset + 1) state tags
  else .ok (offset, tags)
termination_by src.length - offset

/-- `tags::scalar::parse` (src/irc/tags/scalar.rs:3-52). -/
def scalarParse (checks : Bool) (src : Bytes) (pos : Nat) : U (Option (List TagPair) × Nat) := do
  let s ← ofR (strFrom src pos)
  match s with
  | c :: r =>
    if c = AT then do
      let (offset, tags) ← scalarLoop checks r 0 (.key 0) .new
      return (some (← tags.toVec), pos + (offset + 2))
    else return (none, pos)
  | [] => return (none, pos)

/-- The `loop` of `parse_chunk` (src/irc/tags/simd.rs:55-95), with the array. -/
def chunkLoop (checks : Bool) (B : Backend) (offset : Nat) :
    (fuel : Nat) → (eqm semi : B.Mask) → TState → Arr → U (TState × Arr)
  | 0, _, _, _, _ => .error (.panic .diverge)
  | fuel + 1, eqm, semi, state, tags =>
    match state with
    | .key ks =>
      if !B.hasMatch eqm then .ok (.key ks, tags)
      else do
        let m := B.firstMatch eqm
        let eqm ← ofR (B.clearTo eqm m)
        let semi ← ofR (B.clearTo semi m)
        let pos := offset + B.asIndex m
        chunkLoop checks B offset fuel eqm semi (.value ks pos) tags
    | .value ks ke =>
      if !B.hasMatch semi then .ok (.value ks ke, tags)
      else do
        let m := B.firstMatch semi
        let eqm ← ofR (B.clearTo eqm m)
        let semi ← ofR (B.clearTo semi m)
        let pos := offset + B.asIndex m
        let p ← ofR (mkPair checks ks ke pos)
        let tags ← tags.push p
        chunkLoop checks B offset fuel eqm semi (.key (pos + 1)) tags

/-- `parse_chunk` (src/irc/tags/simd.rs:51-96), with the array. -/
def parseChunk (checks : Bool) (B : Backend) (offset : Nat) (chunk : Bytes) (state : TState) (tags : Arr) :
    U (TState × Arr) :=
  chunkLoop checks B offset (B.size + 1) (B.movemask (vecEq chunk EQS)) (B.movemask (vecEq chunk SEMI)) state tags

/-- The `while` loop of `tags::simd::parse` (src/irc/tags/simd.rs:16-20), with the array. -/
def simdLoop (checks : Bool) (B : Backend) (rem : Slice) (offset : Nat) (state : TState) (tags : Arr) :
    U (Nat × TState × Arr) :=
  if offset + B.size < rem.bytes.length then do
    let chunk ← ofR (loadUnaligned B rem offset)
    let (state, tags) ← parseChunk checks B offset chunk state tags
    simdLoop checks B rem (offset + B.size) state tags
  else .ok (offset, state, tags)
termination_by rem.bytes.length - offset
decreasing_by have := B.size_pos; omega

/-- `tags::simd::parse` (src/irc/tags/simd.rs:4-42), with the array. -/
def simdParse (checks : Bool) (B : Backend) (addr : Nat) (src : Bytes) (pos : Nat) :
    U (Option (List TagPair) × Nat) := do
  let s ← ofR (strFrom src pos)
  match s with
  | c :: r =>
    if c = AT then do
      let d : Slice := ⟨addr + pos + 1, r⟩
      match ← ofR (findFirst B d SP) with
      | none => return (none, pos)
      | some stop =>
        let rem ← if stop ≤ r.length then (.ok ⟨d.addr, r.take stop⟩ : U Slice) else .error (.panic .index)
        let (offset, state, tags) ← simdLoop checks B rem 0 (.key 0) .new
        let left ← ofR (usub rem.bytes.length offset)
        let tags ←
          if 0 < left then do
            let chunk ← ofR (loadUnalignedRemainder B rem offset)
            let (state, tags) ← parseChunk checks B offset chunk state tags
            match state with
            | .value ks ke => do
              let p ← ofR (mkPair checks ks ke rem.bytes.length)
              tags.push p
            | .key _ => pure tags
          else pure tags
        return (some (← tags.toVec), pos + (stop + 2))
    else return (none, pos)
  | [] => return (none, pos)

/-- `tags::parse` (src/irc/tags.rs:295-303). -/
def parseTags (b : Build) (src : Bytes) (pos : Nat) : U (Option (List TagPair) × Nat) :=
  match b.tagParser with
  | .scalar => scalarParse b.checks src pos
  | .simd arch addr => simdParse b.checks arch.backend addr src pos

/-- The `for i in start..bytes.len()` loop of src/irc/prefix.rs:64-85: `bytes.get_unchecked(i)` is not checked. -/
def prefixLoop (bytes : Bytes) (start i hostStart : Nat) (nick : Option Span) (nickEnd : Option Nat)
    (user : Option Span) : U (Option (RawPrefix × Nat)) :=
  if i < bytes.length then
    match bytes[i]? with
    | none => .error .outside
    | some c =>
      if c = SP then .ok (some (⟨nick, user, Span.mk' hostStart i⟩, i + 1))
      else if c = AT then
        match nickEnd with
        | some ne => prefixLoop bytes start (i + 1) (i + 1) nick nickEnd (some (Span.mk' (ne + 1) i))
        | none => prefixLoop bytes start (i + 1) (i + 1) (some (Span.mk' start i)) nickEnd user
      else if c = BANG then
        prefixLoop bytes start (i + 1) hostStart (some (Span.mk' start i)) (some i) user
      else prefixLoop bytes start (i + 1) hostStart nick nickEnd user
  else .ok none
termination_by bytes.length - i

/-- `prefix::parse` (src/irc/prefix.rs:49-88). -/
def parsePrefix (src : Bytes) (pos : Nat) : U (Option RawPrefix × Nat) := do
  let s ← ofR (strFrom src pos)
  if !startsWith COLON s then return (none, pos)
  else
    let start := pos + 1
    match ← prefixLoop src start start start none none none with
    | some (p, pos') => return (some p, pos')
    | none => return (none, pos)

/-- `IrcMessageRef::parse` / `parse_inner` (src/irc.rs:56-80). -/
def parse (b : Build) (src : Bytes) : U (Option MsgRef) := do
  let (tags?, pos) ← parseTags b src 0
  let tags := tags?.getD []
  let (pfx, pos) ← parsePrefix src pos
  let (command?, pos) ← ofR (parseCommand src pos)
  match command? with
  | none => return none
  | some command =>
    let (channel, pos) ← ofR (parseChannel src pos)
    let params ← ofR (parseParams src pos)
    return some ⟨b.checks, src, tags, pfx, command, channel, params⟩

end Mem

end Tmi.Model
