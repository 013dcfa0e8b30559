/-
Lemmas: the lines that a server gets over all connections of a client.
-/
import Verif.Spec.Retry
import Verif.Proofs.Moments
import Verif.Props.Issued

namespace Tmi.Proofs
open Tmi.Model Tmi.Spec Tmi.Props

/-! ### Lines -/

theorem receivedLines_next {a : Bytes} (b : Bytes) (ha : LF ∉ a) :
    receivedLines (a ++ LF :: b) = stripCR a :: receivedLines b := by
  unfold receivedLines
  rw [fields_some b ha, List.dropLast_cons_of_ne_nil (fields_ne_nil _ _), List.map_cons]

theorem receivedLines_none {a : Bytes} (ha : LF ∉ a) : receivedLines a = [] := by
  unfold receivedLines
  rw [fields_none ha]; rfl

theorem receivedLines_prefix : ∀ (n : Nat) (a b : Bytes), a.length ≤ n → receivedLines a <+: receivedLines (a ++ b)
  | 0, a, b, h => by
    have : a = [] := by simpa using h
    subst this
    rw [receivedLines_nil]; exact List.nil_prefix
  | n + 1, a, b, h => by
    by_cases hx : LF ∈ a
    · obtain ⟨x, y, rfl, hx'⟩ := mem_split hx
      rw [List.append_assoc, List.cons_append, receivedLines_next _ hx', receivedLines_next _ hx']
      exact List.cons_prefix_cons.2 ⟨rfl, receivedLines_prefix n y b (by simp at h; omega)⟩
    · rw [receivedLines_none hx]; exact List.nil_prefix

theorem receivedLines_mono {a b : Bytes} (h : a <+: b) : receivedLines a <+: receivedLines b := by
  obtain ⟨c, rfl⟩ := h
  exact receivedLines_prefix _ a c (Nat.le_refl _)

/-- Terminated lines, and the beginning of another. -/
theorem receivedLines_partial (ls : List Bytes) (hls : ∀ l ∈ ls, LF ∉ l) {p : Bytes} (hp : LF ∉ p) :
    receivedLines ((ls.flatMap fun l => l ++ [CR, LF]) ++ p) = ls := by
  induction ls with
  | nil => exact receivedLines_none hp
  | cons l ls ih =>
    rw [List.flatMap_cons, List.append_assoc, receivedLines_cons _ _ (hls l (by simp)),
      ih fun l hl => hls l (List.mem_cons_of_mem _ hl)]

/-- A beginning of a terminated line that is not all of it has no line feed. -/
theorem begun_line {l p : Bytes} (hl : LF ∉ l) (hp : p <+: l ++ [CR, LF]) (hne : p ≠ l ++ [CR, LF]) : LF ∉ p := by
  obtain ⟨r, hr⟩ := hp
  rcases List.eq_nil_or_concat r with rfl | ⟨r', x, rfl⟩
  · exact absurd (by simpa using hr) hne
  · have e : (p ++ r') ++ [x] = (l ++ [CR]) ++ [LF] := by simpa using hr
    obtain ⟨e1, _⟩ := List.append_inj' e rfl
    intro h
    have : LF ∈ l ++ [CR] := e1 ▸ List.mem_append_left _ h
    rcases List.mem_append.1 this with h | h
    · exact hl h
    · exact absurd h (by decide)

/-! ### The greeting -/

/-- The lines of the greeting. -/
def helloLines (c : Credentials) : List Bytes :=
  [b!"CAP REQ :twitch.tv/commands twitch.tv/tags twitch.tv/membership",
   b!"PASS " ++ passToken (c.token.getD (b!"just_a_lil_guy")), b!"NICK " ++ c.login]

theorem hello_eq (c : Credentials) : hello c = (helloLines c).flatMap fun l => l ++ [CR, LF] := by
  simp [hello, helloLines, CR, LF]

theorem copies_eq (c : Credentials) : ∀ k, copies k (hello c) =
    ((List.replicate k (helloLines c)).flatten).flatMap fun l => l ++ [CR, LF]
  | 0 => rfl
  | k + 1 => by
    have : copies (k + 1) (hello c) = hello c ++ copies k (hello c) := by simp [copies, List.replicate_succ]
    rw [this, copies_eq c k, hello_eq, List.replicate_succ, List.flatten_cons, List.flatMap_append]

theorem helloLines_fine {c : Credentials} (hlogin : LF ∉ c.login) (htoken : ∀ t, c.token = some t → LF ∉ t) :
    ∀ l ∈ helloLines c, LF ∉ l := by
  have htok : LF ∉ passToken (c.token.getD (b!"just_a_lil_guy")) := by
    have : LF ∉ c.token.getD (b!"just_a_lil_guy") := by
      cases ht : c.token with
      | none => decide
      | some t => exact htoken t ht
    unfold passToken
    split
    · exact this
    · rw [List.mem_append]
      rintro (h | h)
      · exact absurd h (by decide)
      · exact this h
  intro l hl
  simp only [helloLines, List.mem_cons, List.not_mem_nil, or_false] at hl
  rcases hl with rfl | rfl | rfl
  · decide
  · rw [List.mem_append]
    rintro (h | h)
    · exact absurd h (by decide)
    · exact htok h
  · rw [List.mem_append]
    rintro (h | h)
    · exact absurd h (by decide)
    · exact hlogin h

theorem helloLines_introduce (c : Credentials) : ∀ l ∈ helloLines c, introduces l = true := by
  intro l hl
  simp only [helloLines, List.mem_cons, List.not_mem_nil, or_false] at hl
  rcases hl with rfl | rfl | rfl
  · decide
  · simp [introduces]
  · simp [introduces]

theorem hellos_of {c : Credentials} {P : Bytes → Prop} (h : ∀ l ∈ helloLines c, P l) (k : Nat) :
    ∀ l ∈ (List.replicate k (helloLines c)).flatten, P l := by
  intro l hl
  obtain ⟨x, hx, hl⟩ := List.mem_flatten.1 hl
  rw [(List.mem_replicate.1 hx).2] at hl
  exact h l hl

theorem command_order (c : Cmd) (hc : ∀ s, c ≠ .raw s) : introduces (commandLine c) = false := by
  cases c with
  | raw s => exact absurd rfl (hc s)
  | privmsg ch t r n => cases r <;> cases n <;> simp [commandLine, introduces, List.isPrefixOf]
  | ping n => simp [commandLine, introduces, List.isPrefixOf]
  | pong n => cases n <;> simp [commandLine, introduces, List.isPrefixOf]
  | join ch => simp [commandLine, introduces, List.isPrefixOf]
  | joinAll chs => simp [commandLine, introduces, List.isPrefixOf]

/-! ### One connection -/

/-- The commands on a connection on which at most the last failed. -/
theorem portions_lines {hi : Bytes} {cs : List (Cmd × Bool)} {m : Nat} {q : Bytes} (h : Portions hi 0 cs m q)
    (hone : ∀ c ∈ cs, OneLine c.1) (hok : ∀ c ∈ cs.dropLast, c.2 = true) :
    ∃ p, q = (((cs.filter (·.2)).map fun c => commandLine c.1).flatMap fun l => l ++ [CR, LF]) ++ p ∧ LF ∉ p ∧
      ((∀ c ∈ cs, c.2 = true) → p = []) := by
  cases h with
  | none => exact ⟨[], rfl, by simp, fun _ => rfl⟩
  | @raw cs m q h s ok p hp hp' hno =>
    exact absurd rfl ((hone (.raw s, ok) (by simp)).1 s)
  | @own cs m q h c ok hc p hp hp' hno =>
    have hm := pieces_zero h
    subst hm
    rw [List.dropLast_concat] at hok
    have hq := pieces_whole h hok
    have hf : cs.filter (·.2) = cs := List.filter_eq_self.2 hok
    have hl : LF ∉ commandLine c := (hone (c, ok) (by simp)).2
    have hb : ∀ c : Cmd, (∀ s, c ≠ .raw s) → commandBytes c = commandLine c ++ [CR, LF] := by
      intro c hc
      cases c with
      | raw s => exact absurd rfl (hc s)
      | _ => rfl
    have hq' : q = ((cs.map fun c => commandLine c.1).flatMap fun l => l ++ [CR, LF]) := by
      rw [hq, List.flatMap_map]
      clear hq h hok hf
      induction cs with
      | nil => rfl
      | cons x cs ih =>
        rw [List.flatMap_cons, List.flatMap_cons,
          ih (fun y hy => hone y (List.mem_append.2 ((List.mem_append.1 hy).imp_left (List.mem_cons_of_mem _)))),
          hb x.1 (hone x (by simp)).1]
    have e0 : copies 0 hi ++ commandBytes c = commandLine c ++ [CR, LF] := by
      rw [hb c hc]; rfl
    rw [e0] at hp hp' hno
    rw [List.filter_append, hf, List.map_append, List.flatMap_append, ← hq']
    cases ok with
    | true =>
      refine ⟨[], ?_, by simp, fun _ => rfl⟩
      rw [hp' rfl]
      simp
    | false =>
      refine ⟨p, by simp, begun_line hl hp fun h => Bool.noConfusion (hno h), fun h => ?_⟩
      have := h (c, false) (by simp)
      simp at this

/-- The orders on one connection. -/
theorem connection_orders {cfg : Config} {all : List (Bool × List (Cmd × Bool))} {w : World} (s : Lives cfg all w)
    {l : List Effect} {j : Nat} {ok : Bool} {cs : List (Cmd × Bool)}
    (hl : w.log = l ∨ ∃ r, w.log = l ++ .connected :: r) (hj : connections l = j + 1)
    (hcs : all[j]? = some (ok, cs)) (hcare : Careful all) (hone : ∀ c ∈ cs, OneLine c.1)
    (hlogin : LF ∉ cfg.credentials.login) (htoken : ∀ t, cfg.credentials.token = some t → LF ∉ t) :
    (receivedLines (written (lastConnection l))).filter (fun line => !introduces line) =
      (cs.filter (·.2)).map fun c => commandLine c.1 := by
  obtain ⟨k, n, m, g, q, h1, -, -, -, h5, h6, h7⟩ := C118_every s hl hj hcs
  have hx := hcare (ok, cs) (List.mem_of_getElem? hcs)
  have fine := hellos_of (helloLines_fine hlogin htoken)
  have intro' := hellos_of (helloLines_introduce cfg.credentials)
  cases ok with
  | true =>
    obtain ⟨rfl, rfl⟩ := h7 rfl
    obtain ⟨p, rfl, hp, -⟩ := portions_lines h6 hone hx.2
    rw [h1, copies_eq, ← List.append_assoc, ← List.flatMap_append, receivedLines_partial _ ?_ hp,
      List.filter_append, List.filter_eq_nil_iff.2 ?_, List.nil_append, List.filter_eq_self.2 ?_]
    · intro y hy
      obtain ⟨c, hc, rfl⟩ := List.mem_map.1 hy
      rw [command_order _ (hone c (List.mem_filter.1 hc).1).1]
      rfl
    · intro y hy
      rw [intro' k y hy]; simp
    · intro y hy
      rcases List.mem_append.1 hy with hy | hy
      · exact fine k y hy
      · obtain ⟨c, hc, rfl⟩ := List.mem_map.1 hy
        exact (hone c (List.mem_filter.1 hc).1).2
  | false =>
    have := hx.1 rfl
    simp only [] at this
    subst this
    have hq : q = [] := by
      generalize hc : ([] : List (Cmd × Bool)) = cs at h6
      cases h6 with
      | none => rfl
      | raw => simp at hc
      | own => simp at hc
    subst hq
    rw [h1, List.append_nil]
    have := receivedLines_mono h5
    rw [copies_eq, (receivedLines_join _).2 (fine k)] at this
    rw [List.filter_eq_nil_iff.2]
    · rfl
    · intro y hy
      rw [intro' k y (this.subset hy)]; simp

/-! ### All connections -/

theorem byConnection_first (l : List Effect) : connections (byConnection l).1 = 0 ∧
    (l = (byConnection l).1 ∨ ∃ r, l = (byConnection l).1 ++ .connected :: r) := by
  induction l with
  | nil => exact ⟨rfl, .inl rfl⟩
  | cons e l ih =>
    cases e with
    | connected => exact ⟨rfl, .inr ⟨l, rfl⟩⟩
    | _ =>
      refine ⟨by simpa [byConnection, connections] using ih.1, ?_⟩
      rcases ih.2 with h | ⟨r, h⟩
      · exact .inl (congrArg (List.cons _) h)
      · exact .inr ⟨r, congrArg (List.cons _) h⟩

theorem byConnection_length (l : List Effect) : (byConnection l).2.length = connections l := by
  induction l with
  | nil => rfl
  | cons e l ih =>
    cases e with
    | connected => rw [byConnection, connections_connected, List.length_cons, ih]
    | _ => simpa [byConnection, connections] using ih

theorem lastConnection_tail (e : Effect) {l : List Effect} (h : connections l ≠ 0) :
    lastConnection (e :: l) = lastConnection l := by
  have hm : Effect.connected ∈ l := by
    apply Classical.byContradiction
    intro hn
    apply h
    unfold connections
    rw [List.filter_eq_nil_iff.2, List.length_nil]
    intro a ha hb
    simp only [beq_iff_eq] at hb
    exact hn (hb ▸ ha)
  obtain ⟨a, b, rfl, hb⟩ : ∃ a b, l = a ++ .connected :: b ∧ connections b = 0 := by
    clear h
    induction l with
    | nil => simp at hm
    | cons x l ih =>
      by_cases hl : Effect.connected ∈ l
      · obtain ⟨a, b, h1, h2⟩ := ih hl
        exact ⟨x :: a, b, by rw [h1]; rfl, h2⟩
      · have : x = .connected := by
          rcases List.mem_cons.1 hm with h | h
          · exact h.symm
          · exact absurd h hl
        subst this
        refine ⟨[], l, rfl, ?_⟩
        unfold connections
        rw [List.filter_eq_nil_iff.2, List.length_nil]
        intro a ha hb
        simp only [beq_iff_eq] at hb
        exact hl (hb ▸ ha)
  rw [← List.cons_append, lastConnection_eq hb, lastConnection_eq hb]

theorem byConnection_get : ∀ (log : List Effect) (j : Nat), j < connections log →
    ∃ l, (log = l ∨ ∃ r, log = l ++ .connected :: r) ∧ connections l = j + 1 ∧
      (byConnection log).2[j]? = some (lastConnection l)
  | [], j, h => by simp [connections] at h
  | e :: log, j, h => by
    by_cases he : e = .connected
    · subst he
      rw [connections_connected] at h
      cases j with
      | zero =>
        obtain ⟨h1, h2⟩ := byConnection_first log
        refine ⟨.connected :: (byConnection log).1, ?_, by rw [connections_connected, h1], ?_⟩
        · rcases h2 with h2 | ⟨r, h2⟩
          · exact .inl (by rw [← h2])
          · exact .inr ⟨r, by rw [List.cons_append, ← h2]⟩
        · rw [byConnection]
          have := lastConnection_eq (a := []) h1
          rw [List.nil_append] at this
          rw [this]; rfl
      | succ j =>
        obtain ⟨l, h1, h2, h3⟩ := byConnection_get log j (by omega)
        refine ⟨.connected :: l, ?_, by rw [connections_connected, h2], ?_⟩
        · rcases h1 with rfl | ⟨r, h1⟩
          · exact .inl rfl
          · exact .inr ⟨r, by rw [h1]; rfl⟩
        · rw [byConnection, lastConnection_tail _ (by omega)]
          simpa using h3
    · have hc : ∀ l, connections (e :: l) = connections l := by
        intro l
        unfold connections
        rw [List.filter_cons_of_neg (by simpa using he)]
      rw [hc] at h
      obtain ⟨l, h1, h2, h3⟩ := byConnection_get log j h
      refine ⟨e :: l, ?_, by rw [hc, h2], ?_⟩
      · rcases h1 with rfl | ⟨r, h1⟩
        · exact .inl rfl
        · exact .inr ⟨r, by rw [h1]; rfl⟩
      · rw [lastConnection_tail _ (by omega), ← h3]
        cases e with
        | connected => exact absurd rfl he
        | _ => rfl

theorem all_orders {cfg : Config} {all : List (Bool × List (Cmd × Bool))} {w : World} (s : Lives cfg all w)
    (hcare : Careful all) (hone : ∀ x ∈ all, ∀ c ∈ x.2, OneLine c.1)
    (hlogin : LF ∉ cfg.credentials.login) (htoken : ∀ t, cfg.credentials.token = some t → LF ∉ t) :
    (sentOn w.log).map (fun wire => (receivedLines wire).filter fun line => !introduces line) =
      all.map fun x => (x.2.filter (·.2)).map fun c => commandLine c.1 := by
  have hlen := C118_every_listed s
  apply List.ext_getElem?
  intro j
  unfold sentOn
  rw [List.map_map, List.getElem?_map, List.getElem?_map]
  by_cases hj : j < connections w.log
  · obtain ⟨l, h1, h2, h3⟩ := byConnection_get w.log j hj
    have ha : all[j]? = some all[j] := List.getElem?_eq_getElem (by omega)
    rw [h3, ha]
    simp only [Option.map_some, Function.comp]
    rw [connection_orders s h1 h2 (cs := all[j].2) (ok := all[j].1) ha hcare
      (hone _ (List.getElem_mem _)) hlogin htoken]
  · rw [List.getElem?_eq_none (by rw [byConnection_length]; omega), List.getElem?_eq_none (by omega)]
    rfl

theorem arrive_orders {got sent : List Bytes} (h : Arrive got sent) : (orders got).Sublist (orders sent) := by
  induction h with
  | none => exact List.Sublist.refl _
  | cons h hs ih =>
    unfold orders at ih ⊢
    rw [List.flatMap_cons, List.flatMap_cons]
    exact ((receivedLines_mono h).sublist.filter _).append ih

end Tmi.Proofs
