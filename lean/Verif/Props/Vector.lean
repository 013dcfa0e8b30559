/-
Properties C03-C07: the vectorised tag parser.
-/
import Verif.Proofs.Total
import Verif.Proofs.Samples

namespace Tmi.Props
open Tmi.Model Tmi.Spec Tmi.Proofs

/-! ## C07: masks -/

/-- C07, `has_match`: true iff some lane equals the needle. -/
theorem C07_has_match (a : Arch) (v : Bytes) (x : UInt8) (hv : v.length = a.backend.size) :
    a.backend.hasMatch (a.backend.movemask (vecEq v x)) = true ↔ x ∈ v := by
  have h := chunkMatch_eq (Arch.lawful a) x hv
  unfold chunkMatch at h
  simp only [] at h
  constructor
  · intro hm
    rw [if_pos hm] at h
    obtain ⟨p, q, rfl, _, _⟩ := find_some h.symm
    simp
  · intro hx
    obtain ⟨p, q, rfl, hp⟩ := mem_split hx
    rw [find_append q hp] at h
    split at h
    · assumption
    · simp at h

example := C07_has_match .neon (b!"0123456789abc;ef") SEMI rfl

/-- C07, `first_match().as_index()`: the least lane equal to the needle. -/
theorem C07_first_match (a : Arch) (v : Bytes) (x : UInt8) (hv : v.length = a.backend.size)
    (hx : x ∈ v) (i : Nat) :
    a.backend.asIndex (a.backend.firstMatch (a.backend.movemask (vecEq v x))) = i ↔
      v[i]? = some x ∧ ∀ j < i, v[j]? ≠ some x := by
  have h := chunkMatch_eq (Arch.lawful a) x hv
  unfold chunkMatch at h
  simp only [] at h
  rw [if_pos ((C07_has_match a v x hv).2 hx)] at h
  obtain ⟨p, q, rfl, hp, hlen⟩ := find_some h.symm
  have hat : (p ++ x :: q)[p.length]? = some x := by simp
  have hbefore : ∀ j < p.length, (p ++ x :: q)[j]? ≠ some x := by
    intro j hj he
    rw [List.getElem?_append_left hj] at he
    exact hp (List.mem_of_getElem? he)
  rw [← hlen]
  constructor
  · rintro rfl
    exact ⟨hat, hbefore⟩
  · rintro ⟨h1, h2⟩
    by_cases hc : p.length < i
    · exact absurd hat (h2 _ hc)
    · by_cases hc' : i < p.length
      · exact absurd h1 (hbefore _ hc')
      · omega

example := C07_first_match .neon (b!"0123;56789abc;ef") SEMI rfl (by decide)

/-- C07, `clear_to`: clearing a mask up to the first match of any other mask removes exactly the
lanes up to and including it.  `v'` is any vector with `x` in exactly the surviving lanes. -/
theorem C07_clear_to (a : Arch) (v v' w : Bytes) (x y : UInt8) (i : Nat)
    (hv : v.length = a.backend.size) (hv' : v'.length = a.backend.size)
    (hw : w.length = a.backend.size)
    (hi : w[i]? = some y) (hfirst : ∀ j < i, w[j]? ≠ some y)
    (hsurv : ∀ j, v'[j]? = some x ↔ i < j ∧ v[j]? = some x) :
    a.backend.clearTo (a.backend.movemask (vecEq v x))
        (a.backend.firstMatch (a.backend.movemask (vecEq w y)))
      = .ok (a.backend.movemask (vecEq v' x)) := by
  have L := Arch.lawful a
  obtain ⟨p, q, rfl, hp⟩ := mem_split (List.mem_of_getElem? hi)
  have hpi : p.length = i := by
    have hat : (p ++ y :: q)[p.length]? = some y := by simp
    by_cases hc : p.length < i
    · exact absurd hat (hfirst _ hc)
    · by_cases hc' : i < p.length
      · rw [List.getElem?_append_left hc'] at hi
        exact absurd (List.mem_of_getElem? hi) hp
      · omega
  rw [L.movemask_eq _ _ hv, L.movemask_eq _ _ hw, L.movemask_eq _ _ hv']
  have hm : (p ++ y :: q).map (· == y)
      = List.replicate i false ++ true :: q.map (· == y) := by
    rw [List.map_append, map_beq_not_mem hp, hpi]; simp
  simp only [List.length_append, List.length_cons] at hw
  rw [hm, L.firstMatch_eq _ _ (by simp; omega), L.clearTo_eq _ _ (by simp [hv]) (by omega)]
  congr 2
  apply List.ext_getElem?
  intro j
  have hs := hsurv j
  by_cases hj : j < a.backend.size
  · have e1 : v[j]? = some v[j] := List.getElem?_eq_getElem (by omega)
    have e2 : v'[j]? = some v'[j] := List.getElem?_eq_getElem (by omega)
    rw [e1, e2] at hs
    simp only [Option.some.injEq] at hs
    rw [List.getElem?_map, e2, List.getElem?_append, List.length_replicate]
    by_cases hc : j < i + 1
    · rw [if_pos hc]
      have : v'[j] ≠ x := fun h => by have := (hs.1 h).1; omega
      simp [hc, this]
    · rw [if_neg hc, List.getElem?_drop, List.getElem?_map, show i + 1 + (j - (i + 1)) = j by omega,
        e1]
      simp only [Option.map_some, Option.some.injEq]
      have : v'[j] = x ↔ v[j] = x := by
        rw [hs]
        constructor
        · exact fun h => h.2
        · exact fun h => ⟨by omega, h⟩
      by_cases hx : v[j] = x
      · simp [hx, this.2 hx]
      · have hx' : ¬ v'[j] = x := fun h => hx (this.1 h)
        rw [beq_eq_false_iff_ne.2 hx, beq_eq_false_iff_ne.2 hx']
  · rw [List.getElem?_eq_none_iff.2 (by simp; omega), List.getElem?_eq_none_iff.2 (by simp; omega)]

/-- Non-vacuity of C07: lane 3 of a 16-byte vector. -/
example : (b!"ab=;cd;gh=jkl;no").length = (Arch.neon).backend.size ∧
    (b!"ab=;cd;gh=jkl;no")[3]? = some SEMI ∧
    (Arch.neon).backend.asIndex ((Arch.neon).backend.firstMatch
      ((Arch.neon).backend.movemask (vecEq (b!"ab=;cd;gh=jkl;no") SEMI))) = 3 := by
  decide +kernel

/-! ## C05: the vectorised search -/

/-- C05: for every vector type, address, string and needle the search ends without a fault and
returns the least index at which the needle occurs, `None` iff it does not occur. -/
theorem C05_find_first (a : Arch) (addr : Nat) (s : Bytes) (x : UInt8) :
    ∃ r, findFirst a.backend ⟨addr, s⟩ x = .ok r ∧
      (∀ i, r = some i ↔ s[i]? = some x ∧ ∀ j < i, s[j]? ≠ some x) ∧
      (r = none ↔ x ∉ s) := by
  refine ⟨find x s, findFirst_eq (Arch.lawful a) _ x, ?_, ?_⟩
  · intro i
    constructor
    · intro h
      obtain ⟨p, q, rfl, hp, rfl⟩ := find_some h
      refine ⟨by simp, ?_⟩
      intro j hj he
      rw [List.getElem?_append_left hj] at he
      exact hp (List.mem_of_getElem? he)
    · rintro ⟨h1, h2⟩
      obtain ⟨p, q, rfl, hp⟩ := mem_split (List.mem_of_getElem? h1)
      rw [find_append q hp]
      have hat : (p ++ x :: q)[p.length]? = some x := by simp
      by_cases hc : p.length < i
      · exact absurd hat (h2 _ hc)
      · by_cases hc' : i < p.length
        · rw [List.getElem?_append_left hc'] at h1
          exact absurd (List.mem_of_getElem? h1) hp
        · congr 1; omega
  · constructor
    · exact find_eq_none
    · exact find_none

/-- Non-vacuity of C05: the hit is in the unaligned tail of a 70-byte string at address 5. -/
example : findFirst (Arch.sse2).backend ⟨5, List.replicate 69 0x61 ++ [SP]⟩ SP = .ok (some 69) := by
  decide +kernel

/-! ## C06: memory safety of the vector loads -/

/-- C06: whatever the string, its address and the vector type, tag parsing performs no load outside
the slice, no misaligned aligned load, no oversized remainder copy, and terminates: the only faults
left are a full tag array and 32-bit overflow of a tag's start offset. -/
theorem C06_loads_safe (a : Arch) (addr : Nat) (checks : Bool) (s : Bytes) (e : Fault)
    (h : parseTags ⟨.simd a addr, checks⟩ s 0 = .error e) : e = .full ∨ e = .overflow := by
  rcases tag_shape s with hs | ⟨t, rest, rfl, hs⟩ | ⟨r, rfl, hs⟩
  · rw [parseTags_no_at _ hs] at h; simp at h
  · rw [parseTags_space _ rest hs] at h
    unfold sectionTags at h
    have hr := runTags_fault checks t 0 (.key 0) []
    cases hq : (runTags checks t 0 (.key 0) [] >>= finishTags checks (0 + t.length)) with
    | error e' =>
      have he := hr e' (Nat.le_refl _) hq
      simp only [Nat.zero_add] at hq
      rw [hq] at h
      simp [bind, Except.bind] at h
      rw [← h]; exact he
    | ok tags =>
      simp only [Nat.zero_add] at hq
      rw [hq] at h
      simp [bind, Except.bind] at h
  · change simdParse checks a.backend addr (AT :: r) 0 = .error e at h
    rw [simdParse_no_space (Arch.lawful _) _ _ hs] at h
    simp at h

/-- The only error there is in practice: too many tags. -/
example : ∃ e, parseTags ⟨.simd .sse2 0, true⟩ (AT :: ((List.replicate 129 (b!"a=;")).flatten ++ b!" PING")) 0 = .error e :=
  ⟨.full, by decide +kernel⟩

/-- C06, for lines below 4 GiB with at most 128 tags: no fault at all. -/
theorem C06_no_fault (a : Arch) (addr : Nat) (checks : Bool) (s : Bytes) (hu : Utf8 s)
    (hl : s.length < 4294967296) (hc : (tagPairs s).length ≤ 128) :
    ∃ r, parseTags ⟨.simd a addr, checks⟩ s 0 = .ok r := by
  obtain ⟨tags?, pre, h, _⟩ := parseTags_pos ⟨.simd a addr, checks⟩ hu hl hc (by simp [TagsTerminated])
  exact ⟨_, h⟩

example := C06_no_fault .avx2 3 true samplePriv (utf8_of samplePriv_ok) (within_of samplePriv_ok).len
  (within_of samplePriv_ok).count

/-- C06: a load that is not a fault yields as many bytes as the vector has, and they are bytes of the slice: all of them
for a full load (which, if aligned, is at an address that is a multiple of the size), followed by zeros up to the size
for the rest of the slice. -/
theorem C06_load_whole (B : Backend) (d : Slice) (offset : Nat) (v : Bytes) :
    (loadUnaligned B d offset = .ok v → v.length = B.size ∧ v <+: d.bytes.drop offset) ∧
    (loadAligned B d offset = .ok v → v.length = B.size ∧ v <+: d.bytes.drop offset ∧ B.size ∣ d.addr + offset) ∧
    (loadUnalignedRemainder B d offset = .ok v →
      v.length = B.size ∧ ∃ z, v = d.bytes.drop offset ++ z ∧ ∀ x ∈ z, x = 0) := by
  refine ⟨fun h => ?_, fun h => ?_, fun h => ?_⟩
  · unfold loadUnaligned at h
    split at h
    · cases h
      exact ⟨by simp [List.length_take, List.length_drop]; omega, List.take_prefix _ _⟩
    · cases h
  · unfold loadAligned at h
    split at h
    · split at h
      · cases h
        exact ⟨by simp [List.length_take, List.length_drop]; omega, List.take_prefix _ _, by
          apply Nat.dvd_of_mod_eq_zero; assumption⟩
      · cases h
    · cases h
  · unfold loadUnalignedRemainder usub at h
    simp only [bind, Except.bind] at h
    split at h
    · cases h
    · split at h
      · cases h
        refine ⟨?_, _, rfl, fun x hx => (List.mem_replicate.1 hx).2⟩
        rename_i h1 _
        split at h1
        · cases h1; simp [List.length_append, List.length_drop]; omega
        · cases h1
      · cases h

/-- Non-vacuity of C06: a line that takes the vector path. -/
example : (parseTags ⟨.simd .avx2 7, true⟩
    (b!"@display-name=abcdefghijklmnopqrstuvwxyz0123456789;id=1 PING") 0).map
      (fun r => (r.1.map List.length, r.2)) = .ok (some 2, 56) := by
  decide +kernel

/-! ## C03, C04: all tag parsers agree -/

/-- C03: the result of parsing does not depend on the vector type nor on the address, for every byte
string (also when it faults). -/
theorem C03_backends_agree (a₁ a₂ : Arch) (addr₁ addr₂ : Nat) (checks : Bool) (s : Bytes) :
    MsgRef.parse ⟨.simd a₁ addr₁, checks⟩ s = MsgRef.parse ⟨.simd a₂ addr₂, checks⟩ s := by
  unfold MsgRef.parse
  rw [parseTags_simd_eq a₁ a₂ addr₁ addr₂]

/-- C04 holds exactly for the lines that do not start with `@`, or have a space after it. -/
theorem C04_scalar_simd_agree_iff (a : Arch) (addr : Nat) (checks : Bool) (s : Bytes) (hu : Utf8 s)
    (hl : s.length < 4294967296) :
    MsgRef.parse ⟨.scalar, checks⟩ s = MsgRef.parse ⟨.simd a addr, checks⟩ s ↔
      (s.head? = some AT → SP ∈ s) := by
  rcases tag_shape s with h | ⟨t, rest, rfl, h⟩ | ⟨r, rfl, h⟩
  · constructor
    · intro _ hh
      cases s with
      | nil => simp at hh
      | cons c r => simp at hh; exact absurd (by rw [hh]) (h r)
    · intro _
      unfold MsgRef.parse
      rw [parseTags_no_at _ h, parseTags_no_at _ h]
  · constructor
    · intro _ _; simp
    · intro _
      unfold MsgRef.parse
      rw [parseTags_space _ rest h, parseTags_space _ rest h]
  · have htp : tagPairs (AT :: r) = [] := by unfold tagPairs; rw [takeTags_no_space h]
    obtain ⟨x, hx, _⟩ := parse_ok ⟨.simd a addr, checks⟩ hu hl (by rw [htp]; simp)
      (by simp [TagsTerminated])
    obtain ⟨e, he⟩ := scalar_unterminated checks h
    rw [hx, he]
    constructor
    · intro h'; simp at h'
    · intro h'
      have := h' rfl
      rcases List.mem_cons.1 this with h1 | h1
      · exact absurd h1 (by decide)
      · exact absurd h1 h

example := C04_scalar_simd_agree_iff .avx2 3 true samplePriv (utf8_of samplePriv_ok) (within_of samplePriv_ok).len

/-- C04, the part that holds. -/
theorem C04_scalar_simd_agree_partial (a : Arch) (addr : Nat) (checks : Bool) (s : Bytes)
    (hu : Utf8 s) (hl : s.length < 4294967296) (h : s.head? = some AT → SP ∈ s) :
    MsgRef.parse ⟨.scalar, checks⟩ s = MsgRef.parse ⟨.simd a addr, checks⟩ s :=
  (C04_scalar_simd_agree_iff a addr checks s hu hl).2 h

/-- Non-vacuity of C04's partial form. -/
example : (b!"@id=1 PING").head? = some AT ∧ SP ∈ b!"@id=1 PING" ∧ Utf8 (b!"@id=1 PING") :=
  ⟨rfl, by decide, .of_ascii (by decide)⟩

/-- C04 is false in general: `@a` panics with the scalar parser and is a command with a SIMD one. -/
theorem C04_negation : MsgRef.parse ⟨.scalar, true⟩ (b!"@a") = .error .slice ∧
    ∃ m, MsgRef.parse ⟨.simd .sse2 0, true⟩ (b!"@a") = .ok (some m) ∧
      m.command = .ok (.other (b!"@a")) := by
  refine ⟨by decide +kernel, ⟨true, b!"@a", [], none, .other ⟨0, 2⟩, none, none⟩, by decide +kernel,
    by decide +kernel⟩

end Tmi.Props
