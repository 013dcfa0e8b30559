/-
Property C80: channel names, tags and commands as keys of maps and sets.
-/
import Verif.Proofs.Keys
import Verif.Proofs.LineSpec
import Verif.Proofs.CommandLine
import Verif.Spec.Reads
import Verif.Props.Sizes

namespace Tmi.Props
open Tmi Model Spec Proofs

/-- C80, lookup: a map with keys `Channel` can be asked with a `&str` or a `&ChannelRef`, a map with keys `&ChannelRef`
with a `&str`: each of the three types compares, orders and hashes a name in the same way. -/
theorem C80_borrow :
    Borrows Channel.borrowStr Channel.eq (fun a b => a == b) Channel.cmp strCmp Channel.hash strHash ∧
    Borrows Channel.borrowRef Channel.eq ChannelRef.eq Channel.cmp ChannelRef.cmp Channel.hash ChannelRef.hash ∧
    Borrows ChannelRef.borrowStr ChannelRef.eq (fun a b => a == b) ChannelRef.cmp strCmp ChannelRef.hash strHash :=
  ⟨⟨fun _ _ => rfl, fun _ _ => rfl, fun _ => rfl⟩, ⟨fun _ _ => rfl, fun _ _ => rfl, fun _ => rfl⟩,
    ⟨fun _ _ => rfl, fun _ _ => rfl, fun _ => rfl⟩⟩

/-- C80, names: two channel names parsed from strings are equal exactly if the strings are, and a name is found by the
string it was parsed from and by no other. -/
theorem C80_channel (s t c d : Bytes) (hc : Channel.parse s = some c) (hd : ChannelRef.parse t = some d) :
    (Channel.eq c (ChannelRef.toOwned d) = true ↔ s = t) ∧ (Channel.borrowStr c = t ↔ s = t) ∧
      (ChannelRef.eq (Channel.borrowRef c) d = true ↔ s = t) := by
  have h1 : c = s := by
    unfold Channel.parse at hc; split at hc
    · exact (Option.some.inj hc).symm
    · cases hc
  have h2 : d = t := by
    unfold ChannelRef.parse at hd; split at hd
    · exact (Option.some.inj hd).symm
    · cases hd
  subst h1 h2
  refine ⟨?_, Iff.rfl, ?_⟩
  · show (c == d) = true ↔ _
    exact beq_iff_eq
  · show (c == d) = true ↔ _
    exact beq_iff_eq

/-- Non-vacuity. -/
example : Channel.parse (b!"#forsen") = some (b!"#forsen") ∧ ChannelRef.parse (b!"#nymn") = some (b!"#nymn") ∧
    Channel.eq (b!"#forsen") (b!"#nymn") = false ∧ Channel.cmp (b!"#forsen") (b!"#nymn") = .lt ∧
    Channel.hash (b!"#a") = [.bytes (b!"#a"), .byte 255] := by decide +kernel

/-- C80, order: channel names, tags and commands are totally ordered, and values that compare as equal are equal.  Channel
names are in the order of a dictionary. -/
theorem C80_order :
    TotalOrder Channel.cmp ∧ TotalOrder ChannelRef.cmp ∧ TotalOrder Tag.cmp ∧ TotalOrder Command.cmp ∧
      (∀ a b, Channel.cmp a b = .lt ↔ Before a b) :=
  ⟨strTotal, strTotal, tagTotal, commandTotal, strCmp_lt⟩

/-- C80, order of tags: the known tags come first, in the order in which the documentation lists them, then the unknown
ones in the order of a dictionary. -/
theorem C80_tag_order (a b : Tag) :
    Tag.cmp a b = .lt ↔
      (∃ i j : Nat, i < j ∧ tagTable[i]?.map Prod.snd = some a ∧ tagTable[j]?.map Prod.snd = some b) ∨
      ((∃ i : Nat, tagTable[i]?.map Prod.snd = some a) ∧ ∃ k, b = .unknown k) ∨
      ∃ k l, a = .unknown k ∧ b = .unknown l ∧ Before k l := by
  have hall : ∀ i : Fin tagTable.length, (tagTable[i.val]).2.ctorIdx = i.val := by decide +kernel
  have hidx : ∀ (t : Tag) (i : Nat), tagTable[i]?.map Prod.snd = some t → t.ctorIdx = i ∧ i < tagTable.length := by
    intro t i hi
    cases hrow : tagTable[i]? with
    | none => rw [hrow] at hi; cases hi
    | some row =>
      have hlt : i < tagTable.length := (List.getElem?_eq_some_iff.mp hrow).1
      have h2 := hall ⟨i, hlt⟩
      rw [hrow] at hi
      have h3 := (List.getElem?_eq_some_iff.mp hrow).2
      injection hi with hi
      subst hi
      simp only at h2
      rw [h3] at h2
      exact ⟨h2, hlt⟩
  have hunk : ∀ t : Tag, t.field.isSome = true → ∃ k, t = .unknown k := by
    intro t ht
    cases t with
    | unknown k => exact ⟨k, rfl⟩
    | _ => cases ht
  have hknown : ∀ t : Tag, t.field = none → t.ctorIdx < tagTable.length := by
    intro t ht
    exact (hidx t _ (tag_at t ht)).2
  have hlast : ∀ k, (Tag.unknown k).ctorIdx = tagTable.length := fun k => (tag_known_lt _).mpr rfl
  show enumCmp Tag.ctorIdx Tag.field a b = .lt ↔ _
  unfold enumCmp
  rw [Ordering.then_eq_lt, Nat.compare_eq_lt, Nat.compare_eq_eq]
  constructor
  · intro h
    cases ha : a.field with
    | none =>
      cases hb : b.field with
      | none =>
        rcases h with h | ⟨h, h'⟩
        · exact .inl ⟨a.ctorIdx, b.ctorIdx, h, tag_at a ha, tag_at b hb⟩
        · rw [ha, hb] at h'; cases h'
      | some y =>
        exact .inr (.inl ⟨⟨a.ctorIdx, tag_at a ha⟩, hunk b (by rw [hb]; rfl)⟩)
    | some x =>
      obtain ⟨k, rfl⟩ := hunk a (by rw [ha]; rfl)
      cases hb : b.field with
      | none =>
        have := hknown b hb
        have := hlast k
        rcases h with h | ⟨h, h'⟩ <;> omega
      | some y =>
        obtain ⟨l, rfl⟩ := hunk b (by rw [hb]; rfl)
        rcases h with h | ⟨h, h'⟩
        · rw [hlast, hlast] at h; omega
        · exact .inr (.inr ⟨k, l, rfl, rfl, (strCmp_lt k l).mp h'⟩)
  · rintro (⟨i, j, hij, hi, hj⟩ | ⟨⟨i, hi⟩, k, rfl⟩ | ⟨k, l, rfl, rfl, h⟩)
    · rw [(hidx a i hi).1, (hidx b j hj).1]
      exact .inl hij
    · obtain ⟨h1, h2⟩ := hidx a i hi
      rw [hlast, h1]
      exact .inl h2
    · exact .inr ⟨rfl, (strCmp_lt k l).mpr h⟩

example : Tag.cmp .id .roomId = .lt ∧ Tag.cmp (.unknown (b!"a")) .id = .gt ∧
    Tag.cmp (.unknown (b!"a")) (.unknown (b!"b")) = .lt := by decide +kernel

/-- C80, tags: tags parsed from two strings are equal, compare as equal and are hashed alike exactly if the strings are
the same. -/
theorem C80_tag (s t : Bytes) :
    ((Tag.parse s).eq (Tag.parse t) = true ↔ s = t) ∧ ((Tag.parse s).cmp (Tag.parse t) = .eq ↔ s = t) ∧
      ((Tag.parse s).hash = (Tag.parse t).hash ↔ s = t) := by
  refine ⟨(tag_eq_iff _ _).trans (tag_parse_inj s t), (tagTotal.eq _ _).trans (tag_parse_inj s t), ?_⟩
  constructor
  · intro h
    refine (tag_parse_inj s t).mp ?_
    unfold Tag.hash at h
    injection h with h1 h2
    injection h1 with h1
    refine tag_inj _ _ h1 ?_
    have hs := tag_shape _ _ h1
    cases hx : (Tag.parse s).field <;> cases hy : (Tag.parse t).field <;> rw [hx, hy] at hs h2
    · cases hs
    · cases hs
    · injection h2 with h2 _
      injection h2 with h2
      rw [h2]
  · rintro rfl; rfl

example : (Tag.parse (b!"id")).eq .id = true ∧ (Tag.parse (b!"id")).eq (.unknown (b!"id")) = false := by decide +kernel

/-- C80, commands: the commands of two lines are equal, compare as equal and are hashed alike exactly if the lines have the
same command token. -/
theorem C80_command (b : Build) (s t : Bytes) (hs : Parses b s) (ht : Parses b t) (l k : Line)
    (hl : line s = some l) (hk : line t = some k) :
    ∃ m n c d, MsgRef.parse b s = .ok (some m) ∧ MsgRef.parse b t = .ok (some n) ∧ m.command = .ok c ∧ n.command = .ok d ∧
      (c.eq d = true ↔ l.command = k.command) ∧ (c.cmp d = .eq ↔ l.command = k.command) ∧
      (c.hash = d.hash ↔ l.command = k.command) := by
  obtain ⟨hu, hw, r, hm⟩ := hs
  obtain ⟨hu', hw', r', hn⟩ := ht
  have h := returned_rest hu hw hm
  have h' := returned_rest hu' hw' hn
  rw [hl] at h
  rw [hk] at h'
  obtain ⟨m, rfl, _, _, _, R⟩ := h
  obtain ⟨n, rfl, _, _, _, R'⟩ := h'
  have inj : commandOf l.command = commandOf k.command ↔ l.command = k.command := by
    constructor
    · intro e
      have := congrArg Command.asStr e
      rwa [commandOf_asStr, commandOf_asStr] at this
    · intro e; rw [e]
  refine ⟨m, n, _, _, hm, hn, R.command, R'.command, (command_eq_iff _ _).trans inj, (commandTotal.eq _ _).trans inj, ?_⟩
  constructor
  · intro h
    refine inj.mp ?_
    unfold Command.hash at h
    injection h with h1 h2
    injection h1 with h1
    refine command_inj _ _ h1 ?_
    have hs := command_shape _ _ h1
    generalize commandOf l.command = c at *
    generalize commandOf k.command = d at *
    cases hx : c.field <;> cases hy : d.field <;> rw [hx, hy] at hs h2
    · cases hs
    · cases hs
    · injection h2 with h2 _
      injection h2 with h2
      rw [h2]
  · intro e; rw [e]

example : Parses ⟨.scalar, true⟩ (b!"PING") ∧ Parses ⟨.scalar, true⟩ (b!"@a=b FOO") ∧
    (line (b!"PING")).map Line.command = some (b!"PING") ∧ (line (b!"@a=b FOO")).map Line.command = some (b!"FOO") :=
  ⟨⟨.of_ascii (by decide), by decide, _, by rfl⟩, ⟨.of_ascii (by decide), by decide, _, by rfl⟩, by decide +kernel,
   by decide +kernel⟩

/-- C80, hashing: what is fed to the hasher for a channel name, a tag or a command determines it, whatever is fed
afterwards.  So keys that consist of several of them are told apart, too. -/
theorem C80_hash :
    (∀ a b r q, Utf8 a → Utf8 b → fed (Channel.hash a) ++ r = fed (Channel.hash b) ++ q → a = b ∧ r = q) ∧
    (∀ (a b : Tag) r q, (∀ k, a = .unknown k → Utf8 k) → (∀ k, b = .unknown k → Utf8 k) →
      fed a.hash ++ r = fed b.hash ++ q → a = b ∧ r = q) ∧
    (∀ (a b : Command) r q, (∀ k, a = .other k → Utf8 k) → (∀ k, b = .other k → Utf8 k) →
      fed a.hash ++ r = fed b.hash ++ q → a = b ∧ r = q) := by
  refine ⟨fun a b r q ha hb h => strHash_fed ha hb h, ?_, ?_⟩
  · intro a b r q ha hb h
    have key : ∀ (t : Tag) x, t.field = some x → t = .unknown x := by
      intro t x hx
      cases t with
      | unknown k => exact congrArg _ (Option.some.inj hx)
      | _ => cases hx
    exact enumHash_fed Tag.ctorIdx Tag.field tag_inj tag_shape tag_small a b (fun x hx => ha x (key a x hx))
      (fun x hx => hb x (key b x hx)) r q h
  · intro a b r q ha hb h
    have key : ∀ (t : Command) x, t.field = some x → t = .other x := by
      intro t x hx
      cases t with
      | other k => exact congrArg _ (Option.some.inj hx)
      | _ => cases hx
    exact enumHash_fed Command.ctorIdx Command.field command_inj command_shape command_small a b
      (fun x hx => ha x (key a x hx)) (fun x hx => hb x (key b x hx)) r q h

example : fed (Channel.hash (b!"#a")) = [35, 97, 255] ∧ fed Tag.id.hash = [7, 0, 0, 0, 0, 0, 0, 0] := by decide +kernel

end Tmi.Props
