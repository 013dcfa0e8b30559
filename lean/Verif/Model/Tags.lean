/-
Model of the tag parsers: src/irc/tags.rs (TagPair, Array), src/irc/tags/scalar.rs,
src/irc/tags/simd.rs.
-/
import Verif.Model.Wide

namespace Tmi.Model

/-- `Span` (src/common.rs:9-15), two `u32`s kept as `Nat` below 2^32 by construction. -/
structure Span where
  start : Nat
  stop : Nat
deriving DecidableEq, Repr

/-- `Span::from(a..b)` (src/common.rs:26-34): both ends are truncated to 32 bits. -/
def Span.mk' (a b : Nat) : Span := ⟨asU32 a, asU32 b⟩

/-- `&src[span]` (src/common.rs:43-50). -/
def Span.get (src : Bytes) (sp : Span) : R Bytes := strSlice src sp.start sp.stop

/-- `TagPair` (src/irc/tags.rs:223-235): `key_start: u32`, `key_end: u16` (length of the key),
`value_end: u16` (length of the value). -/
structure TagPair where
  keyStart : Nat
  keyEnd : Nat
  valueEnd : Nat
deriving DecidableEq, Repr

/-- `TagPair::key` (src/irc/tags.rs:241-245); `checks` says whether `u32` overflow panics. -/
def TagPair.key (checks : Bool) (p : TagPair) : R Span := do
  let stop ← addU32 checks p.keyStart p.keyEnd
  return ⟨p.keyStart, stop⟩

/-- `TagPair::value` (src/irc/tags.rs:250-254). -/
def TagPair.value (checks : Bool) (p : TagPair) : R Span := do
  let a ← addU32 checks p.keyStart p.keyEnd
  let start ← addU32 checks a 1
  let stop ← addU32 checks start p.valueEnd
  return ⟨start, stop⟩

/-- `TagPair::get` (src/irc/tags.rs:257-259). -/
def TagPair.get (checks : Bool) (src : Bytes) (p : TagPair) : R (Bytes × Bytes) := do
  let k ← Span.get src (← p.key checks)
  let v ← Span.get src (← p.value checks)
  return (k, v)

/-- `Array::<128, TagPair>::push` (src/irc/tags.rs:283-286): `self.data[self.len]` panics when the
array is full.  The array is modelled by the list of its initialised elements. -/
def pushTag (tags : List TagPair) (t : TagPair) : R (List TagPair) :=
  if tags.length < 128 then .ok (tags ++ [t]) else .error .full

/-- `State` (src/irc/tags/simd.rs:44-48, src/irc/tags/scalar.rs:54-58). -/
inductive TState where
  | key (keyStart : Nat)
  | value (keyStart keyEnd : Nat)
deriving DecidableEq, Repr

/-- The `TagPair { .. }` literal both parsers push (scalar.rs:23-27, 35-39; simd.rs:31-37, 86-92).
`pos` is the position of the `;`, of the space, or the end. -/
def mkPair (checks : Bool) (keyStart keyEnd pos : Nat) : R TagPair := do
  let ks ← addU32 checks (asU32 keyStart) 1
  let ke ← usub keyEnd keyStart
  let ve ← usub pos (keyEnd + 1)
  return ⟨ks, asU16 ke, asU16 ve⟩

/-! ### Scalar parser -/

/-- The `while offset < src.len()` loop of src/irc/tags/scalar.rs:10-47.  `rest` is `src[offset..]`.
Returns the final `offset` and the tags. -/
def scalarLoop (checks : Bool) : (rest : Bytes) → (offset : Nat) → TState → List TagPair →
    R (Nat × List TagPair)
  | [], offset, _, tags => .ok (offset, tags)
  | c :: rest, offset, state, tags =>
    if c = EQS then
      match state with
      | .key ks => scalarLoop checks rest (offset + 1) (.value ks offset) tags
      | .value ks ke => scalarLoop checks rest (offset + 1) (.value ks ke) tags
    else if c = SEMI then
      match state with
      | .value ks ke => do
        let p ← mkPair checks ks ke offset
        let tags ← pushTag tags p
        scalarLoop checks rest (offset + 1) (.key (offset + 1)) tags
      | .key ks => scalarLoop checks rest (offset + 1) (.key ks) tags
    else if c = SP then
      match state with
      | .value ks ke => do
        let p ← mkPair checks ks ke offset
        let tags ← pushTag tags p
        .ok (offset, tags)
      | .key _ => .ok (offset, tags)
    else scalarLoop checks rest (offset + 1) state tags

/-- `tags::scalar::parse` (src/irc/tags/scalar.rs:3-52).  Returns the tags (or `None`) and the new
value of `*pos`. -/
def scalarParse (checks : Bool) (src : Bytes) (pos : Nat) : R (Option (List TagPair) × Nat) := do
  let s ← strFrom src pos
  match s with
  | c :: r =>
    if c = AT then do
      let (offset, tags) ← scalarLoop checks r 0 (.key 0) []
      return (some tags, pos + (offset + 2))
    else return (none, pos)
  | [] => return (none, pos)

/-! ### Vectorised parser -/

/-- Outcome of a search phase: found at an index, or go on from an offset.
The control flow of src/irc/tags/simd.rs:126-203. -/
inductive Phase where
  | found (i : Nat)
  | next (offset : Nat)
deriving DecidableEq, Repr

/-- `mask.has_match()` / `first_match().as_index()` on one compared chunk.
src/irc/tags/simd.rs:146-150 and the other uses in 120-199. -/
def chunkMatch (B : Backend) (chunk : Bytes) (byte : UInt8) : Option Nat :=
  let mask := B.movemask (vecEq chunk byte)
  if B.hasMatch mask then some (B.asIndex (B.firstMatch mask)) else none

/-- Phase 3 of `find_first`: four aligned chunks at a time (src/irc/tags/simd.rs:126-171). -/
def findUnrolled (B : Backend) (d : Slice) (byte : UInt8) (offset : Nat) : R Phase :=
  if offset + 4 * B.size < d.bytes.length then do
    let chunk0 ← loadAligned B d (offset + B.size * 0)
    let chunk1 ← loadAligned B d (offset + B.size * 1)
    let chunk2 ← loadAligned B d (offset + B.size * 2)
    let chunk3 ← loadAligned B d (offset + B.size * 3)
    match chunkMatch B chunk0 byte with
    | some p => return .found (offset + p + 0 * B.size)
    | none =>
    match chunkMatch B chunk1 byte with
    | some p => return .found (offset + p + 1 * B.size)
    | none =>
    match chunkMatch B chunk2 byte with
    | some p => return .found (offset + p + 2 * B.size)
    | none =>
    match chunkMatch B chunk3 byte with
    | some p => return .found (offset + p + 3 * B.size)
    | none => findUnrolled B d byte (offset + B.size * 4)
  else return .next offset
termination_by d.bytes.length - offset
decreasing_by have := B.size_pos; omega

/-- Phase 4 of `find_first`: one aligned chunk at a time (src/irc/tags/simd.rs:173-185). -/
def findAligned (B : Backend) (d : Slice) (byte : UInt8) (offset : Nat) : R Phase :=
  if offset + B.size ≤ d.bytes.length then do
    let chunk ← loadAligned B d offset
    match chunkMatch B chunk byte with
    | some p => return .found (offset + p)
    | none => findAligned B d byte (offset + B.size)
  else return .next offset
termination_by d.bytes.length - offset
decreasing_by have := B.size_pos; omega

/-- The scalar loop for short data (src/irc/tags/simd.rs:109-113): `for i in 0..data.len()`. -/
def scalarFind (byte : UInt8) : (rest : Bytes) → (i : Nat) → Option Nat
  | [], _ => none
  | b :: rest, i => if b = byte then some i else scalarFind byte rest (i + 1)

/-- `find_first` (src/irc/tags/simd.rs:106-203). -/
def findFirst (B : Backend) (d : Slice) (byte : UInt8) : R (Option Nat) :=
  if d.bytes.length < B.size then .ok (scalarFind byte d.bytes 0)
  else do
    let chunk ← loadUnaligned B d 0
    match chunkMatch B chunk byte with
    | some p => return some p
    | none =>
    let alignedStartAddr ← usub (d.addr + B.size) (d.addr % B.size)
    let offset ← usub alignedStartAddr d.addr
    match ← findUnrolled B d byte offset with
    | .found i => return some i
    | .next offset =>
    match ← findAligned B d byte offset with
    | .found i => return some i
    | .next offset =>
    if offset < d.bytes.length then do
      let offset ← usub d.bytes.length B.size
      let chunk ← loadUnaligned B d offset
      match chunkMatch B chunk byte with
      | some p => return some (offset + p)
      | none => return none
    else return none

/-- The `loop` of `parse_chunk` (src/irc/tags/simd.rs:55-95).  `fuel` bounds the number of
iterations; running out is a fault, which the theorems exclude for `fuel = SIZE + 1`. -/
def chunkLoop (checks : Bool) (B : Backend) (offset : Nat) :
    (fuel : Nat) → (eqm semi : B.Mask) → TState → List TagPair → R (TState × List TagPair)
  | 0, _, _, _, _ => .error .diverge
  | fuel + 1, eqm, semi, state, tags =>
    match state with
    | .key ks =>
      if !B.hasMatch eqm then .ok (.key ks, tags)
      else do
        let m := B.firstMatch eqm
        let eqm ← B.clearTo eqm m
        let semi ← B.clearTo semi m
        let pos := offset + B.asIndex m
        chunkLoop checks B offset fuel eqm semi (.value ks pos) tags
    | .value ks ke =>
      if !B.hasMatch semi then .ok (.value ks ke, tags)
      else do
        let m := B.firstMatch semi
        let eqm ← B.clearTo eqm m
        let semi ← B.clearTo semi m
        let pos := offset + B.asIndex m
        let p ← mkPair checks ks ke pos
        let tags ← pushTag tags p
        chunkLoop checks B offset fuel eqm semi (.key (pos + 1)) tags

/-- `parse_chunk` (src/irc/tags/simd.rs:51-96). -/
def parseChunk (checks : Bool) (B : Backend) (offset : Nat) (chunk : Bytes) (state : TState)
    (tags : List TagPair) : R (TState × List TagPair) :=
  chunkLoop checks B offset (B.size + 1) (B.movemask (vecEq chunk EQS))
    (B.movemask (vecEq chunk SEMI)) state tags

/-- The `while offset + V::SIZE < remainder.len()` loop (src/irc/tags/simd.rs:16-20). -/
def simdLoop (checks : Bool) (B : Backend) (rem : Slice) (offset : Nat) (state : TState)
    (tags : List TagPair) : R (Nat × TState × List TagPair) :=
  if offset + B.size < rem.bytes.length then do
    let chunk ← loadUnaligned B rem offset
    let (state, tags) ← parseChunk checks B offset chunk state tags
    simdLoop checks B rem (offset + B.size) state tags
  else .ok (offset, state, tags)
termination_by rem.bytes.length - offset
decreasing_by have := B.size_pos; omega

/-- `tags::simd::parse` (src/irc/tags/simd.rs:4-42).  `addr` is the address of `src`'s first byte. -/
def simdParse (checks : Bool) (B : Backend) (addr : Nat) (src : Bytes) (pos : Nat) :
    R (Option (List TagPair) × Nat) := do
  let s ← strFrom src pos
  match s with
  | c :: r =>
    if c = AT then do
      let d : Slice := ⟨addr + pos + 1, r⟩
      match ← findFirst B d SP with
      | none => return (none, pos)
      | some stop =>
        -- `&src[..end]` on a byte slice
        let rem ← if stop ≤ r.length then (.ok ⟨d.addr, r.take stop⟩ : R Slice) else .error .index
        let (offset, state, tags) ← simdLoop checks B rem 0 (.key 0) []
        let left ← usub rem.bytes.length offset
        let tags ←
          if 0 < left then do
            let chunk ← loadUnalignedRemainder B rem offset
            let (state, tags) ← parseChunk checks B offset chunk state tags
            match state with
            | .value ks ke => do
              let p ← mkPair checks ks ke rem.bytes.length
              pushTag tags p
            | .key _ => pure tags
          else pure tags
        return (some tags, pos + (stop + 2))
    else return (none, pos)
  | [] => return (none, pos)

/-- Which vector type was selected at compile time (src/irc/wide.rs, wide/x86_64.rs, wide/aarch64.rs). -/
inductive Arch where
  | sse2 | avx2 | neon
deriving DecidableEq, Repr

/-- The selection of the vector type (src/irc/wide.rs:1-21). -/
def Arch.backend : Arch → Backend
  | .sse2 => Model.sse2
  | .avx2 => Model.avx2
  | .neon => Model.neon

/-- The `simd` feature (src/irc/tags.rs:295-303): the scalar parser, or a vector type together with
the address at which the parsed string happens to lie. -/
inductive TagParser where
  | scalar
  | simd (arch : Arch) (addr : Nat)
deriving DecidableEq, Repr

/-- A build: tag parser and whether arithmetic overflow panics (`overflow-checks`, on in the dev
profile and off in the release profile).  The parser is selected at src/irc/tags.rs:295-303. -/
structure Build where
  tagParser : TagParser
  checks : Bool
deriving DecidableEq, Repr

/-- `tags::parse` (src/irc/tags.rs:295-303). -/
def parseTags (b : Build) (src : Bytes) (pos : Nat) : R (Option (List TagPair) × Nat) :=
  match b.tagParser with
  | .scalar => scalarParse b.checks src pos
  | .simd arch addr => simdParse b.checks arch.backend addr src pos

end Tmi.Model
