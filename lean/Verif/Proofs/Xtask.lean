/-
Lemmas about the tasks of the repository.
-/
import Verif.Spec.Xtask
import Verif.Proofs.Escape
import Verif.Proofs.Lines
import Verif.Proofs.Msg

namespace Tmi.Proofs
open Tmi.Spec Tmi.Model
open Tmi.Model.Xtask

theorem x_bind {α β : Type} (x : Job α) (f : α → Job β) (e : Env) (w : Site) :
    (x >>= f) e w = match x e w with
      | (.ok a, w) => f a e w
      | (.error f, w) => (.error f, w) := rfl

theorem x_bind_ok {α β : Type} {x : Job α} {f : α → Job β} {e : Env} {w w' : Site} {b : β}
    (h : (x >>= f) e w = (.ok b, w')) : ∃ a w1, x e w = (.ok a, w1) ∧ f a e w1 = (.ok b, w') := by
  rw [x_bind] at h
  split at h
  · exact ⟨_, _, by assumption, h⟩
  · cases h

/-- A part that leaves the file alone and runs commands that satisfy `P`. -/
def LeavesFile {α : Type} (P : Argv → Prop) (x : Job α) : Prop :=
  ∀ e w, ∃ cs, (x e w).2 = { w with ran := w.ran ++ cs } ∧ ∀ c ∈ cs, P c

theorem leaves_give {α : Type} {P : Argv → Prop} (a : α) : LeavesFile P (give a) :=
  fun _ _ => ⟨[], by simp [give], by simp⟩

theorem leaves_stop {α : Type} {P : Argv → Prop} (f : Fail) : LeavesFile P (giveUp (α := α) f) :=
  fun _ _ => ⟨[], by simp [giveUp], by simp⟩

theorem leaves_bind {α β : Type} {P : Argv → Prop} {x : Job α} {f : α → Job β}
    (hx : LeavesFile P x) (hf : ∀ a, LeavesFile P (f a)) : LeavesFile P (x >>= f) := by
  intro e w
  obtain ⟨cs, h1, h2⟩ := hx e w
  rw [x_bind]
  rcases hh : x e w with ⟨r, w1⟩
  rw [hh] at h1
  simp only at h1
  subst h1
  cases r with
  | error f => exact ⟨cs, rfl, h2⟩
  | ok a =>
    obtain ⟨ds, h3, h4⟩ := hf a e { w with ran := w.ran ++ cs }
    refine ⟨cs ++ ds, by simp [h3], ?_⟩
    intro c hc
    rcases List.mem_append.1 hc with h | h
    · exact h2 c h
    · exact h4 c h

theorem leaves_spawn {P : Argv → Prop} {c : Argv} (h : P c) : LeavesFile P (spawn c) := by
  intro e w
  refine ⟨[c], ?_, by simpa using h⟩
  simp only [spawn]
  split <;> rfl

theorem leaves_check {P : Argv → Prop} (r : Ran) : LeavesFile P (check r) := by
  unfold check
  split
  · exact leaves_give ()
  · exact leaves_stop _

theorem leaves_run {P : Argv → Prop} {c : Argv} (h : P c) : LeavesFile P (run c) :=
  leaves_bind (leaves_spawn h) fun r => leaves_check r

theorem leaves_output {P : Argv → Prop} {c : Argv} (h : P c) : LeavesFile P (runWithOutput c) :=
  leaves_bind (leaves_spawn h) fun r => leaves_bind (leaves_check r) fun _ => by
    split
    · exact leaves_give _
    · exact leaves_stop _

theorem leaves_lines : ∀ (cs ls : List Bytes), LeavesFile OnlyReads (commitLines cs ls)
  | [], ls => leaves_give ls
  | c :: cs, ls => leaves_bind (leaves_output ⟨_, .inr rfl⟩) fun _ => leaves_lines cs _

theorem leaves_read {P : Argv → Prop} : LeavesFile P readFile := by
  intro e w
  refine ⟨[], ?_, by simp⟩
  simp only [readFile]
  split
  · split <;> simp
  · simp

/-- All of `changelog` before the file is read, giving the new text. -/
def gather (since : Bytes) (until? : Option Bytes) : Job Bytes := do
  let gitLog ← runWithOutput
    (git [b!"log", since ++ b!".." ++ until?.getD (b!"HEAD"), b!"--pretty=format:%h"])
  let commits := splitOn LF (trim gitLog)
  let lines ← commitLines commits []
  let latest ← runWithOutput (git [b!"log", b!"-1", b!"--pretty=format:%h"])
  let range := b!"[" ++ since ++ b!".." ++ latest ++ b!"](https://github.com/jprochazk/tmi-rs/compare/" ++ since ++
    b!"..." ++ latest ++ b!")"
  give (range ++ b!"\n\n" ++ joinText (b!"\n") lines ++ b!"\n\n")

theorem x_assoc {α β γ : Type} (x : Job α) (f : α → Job β) (g : β → Job γ) :
    (x >>= f) >>= g = x >>= fun a => f a >>= g := by
  funext e w
  simp only [x_bind]
  rcases x e w with ⟨r, w1⟩
  cases r <;> rfl

theorem x_give {α : Type} (x : Job α) : (x >>= fun a => give a) = x := by
  funext e w
  rw [x_bind]
  rcases x e w with ⟨r, w1⟩
  cases r <;> rfl

theorem changelog_eq (since : Bytes) (until? : Option Bytes) :
    changelog since until? = gather since until? >>= fun new => readFile >>= fun old => writeFile (new ++ old) := by
  unfold changelog gather
  simp only [x_assoc]
  rfl

theorem leaves_gather (since : Bytes) (until? : Option Bytes) : LeavesFile OnlyReads (gather since until?) :=
  leaves_bind (leaves_output ⟨_, .inl rfl⟩) fun _ => leaves_bind (leaves_lines _ _) fun _ =>
    leaves_bind (leaves_output ⟨_, .inl rfl⟩) fun _ => leaves_give _

theorem gather_ne {since : Bytes} {until? : Option Bytes} {e : Env} {w w' : Site} {new : Bytes}
    (h : gather since until? e w = (.ok new, w')) : new ≠ [] := by
  unfold gather at h
  obtain ⟨a, w1, _, h⟩ := x_bind_ok h
  obtain ⟨b, w2, _, h⟩ := x_bind_ok h
  obtain ⟨c, w3, _, h⟩ := x_bind_ok h
  simp only [give, Prod.mk.injEq, Except.ok.injEq] at h
  rw [← h.1]
  simp

/-- What writing does: moments, each a beginning of the text. -/
theorem writeRest_moments : ∀ (todo : Bytes) (done : Bytes) (ns : List Nat) (w : Site), w.file = some done →
    ∃ added, (writeRest done todo ns w).2.past = added ++ w.past ∧
      (writeRest done todo ns w).2.ran = w.ran ∧
      (∀ p ∈ (writeRest done todo ns w).2.file :: added, ∃ s, p = some s ∧ s <+: done ++ todo) ∧
      some done ∈ (writeRest done todo ns w).2.file :: added ∧
      ((writeRest done todo ns w).1 = .ok () → (writeRest done todo ns w).2.file = some (done ++ todo)) ∧
      (∀ f, (writeRest done todo ns w).1 = .error f → f = .error none ∧
        (writeRest done todo ns w).2.file ≠ some (done ++ todo)) := by
  intro todo done ns
  induction ns generalizing todo done with
  | nil =>
    intro w hw
    cases todo with
    | nil => exact ⟨[], by simp [writeRest], by simp [writeRest], by simp [writeRest, hw], by simp [writeRest, hw], by simp [writeRest, hw], by simp [writeRest]⟩
    | cons x t => exact ⟨[], by simp [writeRest], by simp [writeRest], by simp [writeRest, hw], by simp [writeRest, hw],
        by simp [writeRest], by simp [writeRest, hw]⟩
  | cons n ns ih =>
    intro w hw
    cases todo with
    | nil => exact ⟨[], by simp [writeRest], by simp [writeRest], by simp [writeRest, hw], by simp [writeRest, hw], by simp [writeRest, hw], by simp [writeRest]⟩
    | cons x t =>
      by_cases hn : n = 0
      · exact ⟨[], by simp [writeRest, hn], by simp [writeRest, hn], by simp [writeRest, hn, hw], by simp [writeRest, hn, hw],
          by simp [writeRest, hn], by simp [writeRest, hn, hw]⟩
      · obtain ⟨added, h1, h2, h3, _, h4, h5⟩ := ih ((x :: t).drop n) (done ++ (x :: t).take n) (w.put (done ++ (x :: t).take n)) rfl
        have e : done ++ (x :: t).take n ++ (x :: t).drop n = done ++ x :: t := by
          rw [List.append_assoc, List.take_append_drop]
        rw [e] at h3 h4 h5
        have eq : writeRest done (x :: t) (n :: ns) w =
            writeRest (done ++ (x :: t).take n) ((x :: t).drop n) ns (w.put (done ++ (x :: t).take n)) := by
          rw [writeRest, if_neg hn]
        rw [eq]
        refine ⟨added ++ [w.file], by rw [h1]; simp [Site.put], by rw [h2]; rfl, ?_, by simp [hw], h4, h5⟩
        intro p hp
        rcases List.mem_cons.1 hp with h | h
        · exact h3 p (h ▸ List.mem_cons_self ..)
        · rcases List.mem_append.1 h with h | h
          · exact h3 p (List.mem_cons_of_mem _ h)
          · simp only [List.mem_singleton] at h
            exact ⟨done, h.trans hw, List.prefix_append _ _⟩

theorem x_writeRest_ok : ∀ (todo : Bytes) (done : Bytes) (ns : List Nat) (w : Site), (∀ n ∈ ns, 0 < n) →
    todo.length ≤ ns.length → (writeRest done todo ns w).1 = .ok () := by
  intro todo done ns
  induction ns generalizing todo done with
  | nil =>
    intro w _ hl
    cases todo with
    | nil => simp [writeRest]
    | cons x t => simp at hl
  | cons n ns ih =>
    intro w hp hl
    cases todo with
    | nil => simp [writeRest]
    | cons x t =>
      have hn : 0 < n := hp n (by simp)
      rw [writeRest, if_neg (by omega)]
      refine ih _ _ _ (fun m hm => hp m (by simp [hm])) ?_
      simp only [List.length_drop, List.length_cons] at hl ⊢
      omega

theorem x_spawn_prints {e : Env} {c : Argv} {out : Bytes} (h : Prints e.outside c out) (w : Site) :
    ∃ code, spawn c e w = (.ok ⟨true, code, out⟩, { w with ran := w.ran ++ [c] }) := by
  obtain ⟨code, hc⟩ := h w.ran
  refine ⟨code, ?_⟩
  simp only [spawn, hc]

theorem x_output_prints {e : Env} {c : Argv} {out : Bytes} (h : Prints e.outside c out) (hu : Utf8 out) (w : Site) :
    runWithOutput c e w = (.ok out, { w with ran := w.ran ++ [c] }) := by
  obtain ⟨code, hc⟩ := x_spawn_prints h w
  unfold runWithOutput
  rw [x_bind, hc]
  simp only
  rw [x_bind]
  simp only [check, if_true, give, (isUtf8_iff out).2 hu]

/-! ### Words -/

theorem trim_id {cs : List Char} (h0 : ∀ c ∈ cs.head?, isWhite c = false) (h1 : ∀ c ∈ cs.getLast?, isWhite c = false) :
    trim (enc cs) = enc cs := by
  have key : ∀ l : List Char, (∀ c ∈ l.head?, isWhite c = false) → l.dropWhile isWhite = l := by
    intro l hl
    cases l with
    | nil => rfl
    | cons c t => rw [List.dropWhile_cons_of_neg]; simp [hl c (by simp)]
  rw [trim, decode_enc, key cs h0, key cs.reverse (by rw [List.head?_reverse]; exact h1), List.reverse_reverse]

theorem word_lf {w : Bytes} (h : IsWord w) : LF ∉ w := by
  obtain ⟨cs, rfl, _, hw⟩ := h
  rw [ascii_mem_enc (by decide)]
  intro hm
  have := hw _ hm
  revert this
  decide

theorem words_joined : ∀ ws : List Bytes, ws ≠ [] → (∀ w ∈ ws, IsWord w) →
    ∃ cs, joinWith LF ws = enc cs ∧ cs ≠ [] ∧ (∀ c ∈ cs.head?, isWhite c = false) ∧ ∀ c ∈ cs.getLast?, isWhite c = false
  | [], h, _ => absurd rfl h
  | [w], _, hw => by
    obtain ⟨cs, rfl, h0, h1⟩ := hw w (by simp)
    exact ⟨cs, rfl, h0, fun c hc => h1 c (List.mem_of_mem_head? hc), fun c hc => h1 c (List.mem_of_mem_getLast? hc)⟩
  | w :: v :: ws, _, hw => by
    obtain ⟨cs, rfl, h0, h1⟩ := hw w (by simp)
    obtain ⟨ds, e, d0, _, d2⟩ := words_joined (v :: ws) (by simp) fun x hx => hw x (by simp [hx])
    refine ⟨cs ++ '\n' :: ds, ?_, by simp, ?_, ?_⟩
    · rw [joinWith, e, enc_append, enc_cons]
      rfl
      simp
    · intro c hc
      obtain ⟨d, cs', rfl⟩ := List.exists_cons_of_ne_nil h0
      exact h1 c (by simp at hc; simp [hc])
    · intro c hc
      rw [List.getLast?_append, List.getLast?_cons] at hc
      cases hd : ds.getLast? with
      | none => exact absurd (List.getLast?_eq_none_iff.1 hd) d0
      | some d =>
        rw [hd] at hc
        exact d2 c (by rw [hd]; simpa using hc)

theorem x_commits {ws : List Bytes} (h0 : ws ≠ []) (h : ∀ w ∈ ws, IsWord w) :
    splitOn LF (trim (joinWith LF ws)) = ws ∧ Utf8 (joinWith LF ws) := by
  obtain ⟨cs, e, _, h1, h2⟩ := words_joined ws h0 h
  refine ⟨?_, cs, e⟩
  rw [e, trim_id h1 h2, ← e, splitOn_fields, fields_joinWith LF ws h0 fun w hw => word_lf (h w hw)]

/-! ### The loop -/

theorem x_message {c : Commit} (h : c.Ok) : (splitOnce LF c.message).getD (c.message, []) = (c.subject, c.body.getD []) := by
  rw [splitOnce_eq]
  unfold Commit.message
  cases c.body with
  | none => rw [cut_none h.subject]; rfl
  | some r => rw [cut_append r h.subject]; rfl

/-- The line for a commit. -/
def headLine (c : Commit) : Bytes :=
  c.subject ++ b!" [" ++ c.hash ++ b!"](" ++ (b!"https://github.com/jprochazk/tmi-rs/commit/" ++ c.hash) ++ b!")"

theorem x_lines {e : Env} : ∀ (cs : List Commit) (ls : List Bytes) (w : Site), (∀ c ∈ cs, c.Ok) →
    (∀ c ∈ cs, Prints e.outside [b!"git", b!"show", b!"--quiet", b!"--pretty=format:%B", c.hash] c.message) →
    commitLines (cs.map Commit.hash) ls e w =
      (.ok (ls ++ cs.flatMap fun c => [headLine c, c.body.getD []]),
        { w with ran := w.ran ++ cs.map fun c => [b!"git", b!"show", b!"--quiet", b!"--pretty=format:%B", c.hash] })
  | [], ls, w, _, _ => by simp [commitLines, give]
  | c :: cs, ls, w, h1, h2 => by
    have ho := h1 c (by simp)
    rw [List.map_cons, commitLines, x_bind]
    unfold git
    rw [x_output_prints (h2 c (by simp)) ho.text w]
    simp only
    rw [x_message ho]
    simp only
    rw [x_lines cs _ _ (fun d hd => h1 d (by simp [hd])) (fun d hd => h2 d (by simp [hd]))]
    simp [headLine]

theorem x_joined : ∀ cs : List Commit,
    joinText (b!"\n") (cs.flatMap fun c => [headLine c, c.body.getD []]) = joinWith LF (cs.map Commit.entry)
  | [] => rfl
  | [c] => by simp [joinText, joinWith, headLine, Commit.entry]
  | c :: d :: cs => by
    have ih := x_joined (d :: cs)
    rw [List.map_cons, List.map_cons, joinWith, ← List.map_cons, ← ih]
    · simp [joinText, headLine, Commit.entry]
    · simp

theorem x_gather {e : Env} {since last : Bytes} {until? : Option Bytes} {cs : List Commit}
    (hg : GitHas e.outside (since ++ b!".." ++ until?.getD (b!"HEAD")) cs last) (h0 : cs ≠ []) (hc : ∀ c ∈ cs, c.Ok)
    (hl : Utf8 last) (w : Site) :
    gather since until? e w = (.ok (changes since last cs), { w with ran := w.ran ++
      ([[b!"git", b!"log", since ++ b!".." ++ until?.getD (b!"HEAD"), b!"--pretty=format:%h"]] ++
       (cs.map fun c => [b!"git", b!"show", b!"--quiet", b!"--pretty=format:%B", c.hash]) ++
       [[b!"git", b!"log", b!"-1", b!"--pretty=format:%h"]]) }) := by
  obtain ⟨k1, k2⟩ := x_commits (ws := cs.map Commit.hash) (by simpa using h0) (by
    intro w hw
    obtain ⟨c, hm, rfl⟩ := List.mem_map.1 hw
    exact (hc c hm).hash)
  unfold gather git
  rw [x_bind, x_output_prints hg.log k2]
  simp only
  rw [k1, x_bind, x_lines cs [] _ hc hg.shown]
  simp only
  rw [x_bind, x_output_prints hg.last hl]
  simp only [give, List.nil_append, x_joined]
  simp [changes]

/-! ### The list of cargo -/

theorem x_anyLine {cmd : Bytes} {e : Env} {w : Site} : ∀ (is : List Item), (∀ i ∈ is, i.Ok) →
    anyLine cmd (is.map Item.line) e w = (.ok (decide (cmd ∈ listedNames is)), w)
  | [], _ => by simp [anyLine, give, listedNames]
  | i :: is, h => by
    have ih := x_anyLine (cmd := cmd) (e := e) (w := w) is fun j hj => h j (by simp [hj])
    have hi := h i (by simp)
    cases i with
    | heading t =>
      have hh : (t.head?.map isAsciiWhite).getD false = false := by
        cases t with
        | nil => rfl
        | cons x r =>
          have hx := hi.2.2 x (by simp)
          simp only [List.head?_cons, Option.map_some, Option.getD_some, isAsciiWhite]
          have h1 : x ≠ 0x20 := hx.1
          have h2 := hx.2
          have hn : ∀ y : UInt8, 9 ≤ y ∧ y ≤ 13 → (x == y) = false := by
            intro y hy
            rw [beq_eq_false_iff_ne]
            rintro rfl
            exact h2 hy
          rw [hn 9 (by decide), hn 10 (by decide), hn 12 (by decide), hn 13 (by decide), beq_eq_false_iff_ne.2 h1]
          rfl
      rw [List.map_cons, Item.line, anyLine, hh]
      simp only [Bool.false_eq_true, if_false]
      rw [ih]
      simp [listedNames, Item.name?]
    | command n name about =>
      obtain ⟨h0, h1, h2, h3⟩ := hi
      obtain ⟨c, cs, rfl⟩ := List.exists_cons_of_ne_nil h0
      have hrep : List.replicate (n + 1) SP = enc (List.replicate (n + 1) ' ') := by
        have : ∀ k, List.replicate k SP = enc (List.replicate k ' ') := by
          intro k
          induction k with
          | zero => rfl
          | succ k ihk => rw [List.replicate_succ, List.replicate_succ, enc_cons, ihk]; rfl
        exact this _
      have htrim : trim (Item.line (.command n (c :: cs) about)) =
          enc (c :: cs) ++ enc ((about.reverse.dropWhile isWhite).reverse) := by
        rw [Item.line, hrep, ← enc_append, ← enc_append, trim, decode_enc, ← enc_append]
        congr 1
        have a1 : (List.replicate (n + 1) ' ' ++ (c :: cs) ++ about).dropWhile isWhite = (c :: cs) ++ about := by
          rw [List.append_assoc, List.dropWhile_append_of_pos (by
            intro x hx
            rw [List.eq_of_mem_replicate hx]
            decide)]
          rw [List.cons_append, List.dropWhile_cons_of_neg]
          simp [h1 c (by simp)]
        rw [a1, List.reverse_append]
        have a2 : ∀ l : List Char, (l ++ (c :: cs).reverse).dropWhile isWhite = l.dropWhile isWhite ++ (c :: cs).reverse := by
          intro l
          induction l with
          | nil =>
            cases hr : (c :: cs).reverse with
            | nil => rfl
            | cons d ds =>
              have : d ∈ c :: cs := by rw [← List.mem_reverse, hr]; simp
              rw [List.nil_append, List.dropWhile_nil, List.nil_append, List.dropWhile_cons_of_neg]
              simp [h1 d this]
          | cons x l ihl =>
            rw [List.cons_append, List.dropWhile_cons, List.dropWhile_cons]
            split
            · exact ihl
            · rfl
        rw [a2, List.reverse_append, List.reverse_reverse]
      have hnw : ∀ y ∈ enc (c :: cs), isAsciiWhite y = false := by
        intro y hy
        by_cases hb : isAsciiWhite y = true
        · exfalso
          have hlt : y < 0x80 ∧ isWhite (Char.ofNat y.toNat) = true := by
            simp only [isAsciiWhite, Bool.or_eq_true, beq_iff_eq] at hb
            rcases hb with (((hb | hb) | hb) | hb) | hb <;> subst hb <;> decide
          have := h1 _ ((ascii_mem_enc hlt.1).1 hy)
          rw [hlt.2] at this
          cases this
        · simpa using hb
      have hrest : ∀ r : Bytes, r = enc ((about.reverse.dropWhile isWhite).reverse) → r = [] ∨ ∃ t, r = SP :: t := by
        intro r hr
        have hp : (about.reverse.dropWhile isWhite).reverse <+: about := by
          have := List.dropWhile_suffix (l := about.reverse) isWhite
          have := List.reverse_prefix.2 this
          simpa using this
        cases hq : (about.reverse.dropWhile isWhite).reverse with
        | nil => left; rw [hr, hq]; rfl
        | cons d ds =>
          right
          rw [hq] at hp
          obtain ⟨z, hz⟩ := hp
          have : d = ' ' := h3 d (by rw [← hz]; simp)
          subst this
          exact ⟨enc ds, by rw [hr, hq, enc_cons]; rfl⟩
      have hne : enc (c :: cs) ≠ [] := by
        intro hz
        have := enc_injective (a := c :: cs) (b := []) (by rw [hz]; rfl)
        cases this
      have hfw : firstWord (trim (Item.line (.command n (c :: cs) about))) = some (enc (c :: cs)) := by
        rw [htrim]
        generalize hE : enc (c :: cs) = E at hnw hne
        generalize hR : enc ((about.reverse.dropWhile isWhite).reverse) = R at hrest
        obtain ⟨x, E', rfl⟩ := List.exists_cons_of_ne_nil hne
        unfold firstWord
        have hd : (x :: E' ++ R).dropWhile isAsciiWhite = x :: E' ++ R := by
          rw [List.cons_append, List.dropWhile_cons_of_neg]
          simp [hnw x (by simp)]
        rw [hd]
        simp only [List.cons_append]
        rw [← List.cons_append, List.takeWhile_append_of_pos (by intro y hy; simp [hnw y hy])]
        rcases hrest R rfl with hr | ⟨t, hr⟩
        · simp [hr]
        · rw [hr, List.takeWhile_cons_of_neg (by decide)]; simp
      have hhead : ((Item.line (.command n (c :: cs) about)).head?.map isAsciiWhite).getD false = true := by
        simp [Item.line, List.replicate_succ]
        decide
      rw [List.map_cons, anyLine, hhead, if_pos rfl, hfw]
      simp only
      by_cases hcmd : enc (c :: cs) = cmd
      · rw [if_pos hcmd]
        simp [give, listedNames, Item.name?, hcmd]
      · rw [if_neg hcmd, ih]
        simp [listedNames, Item.name?, Ne.symm hcmd]

theorem x_items_lf {i : Item} (h : i.Ok) : LF ∉ i.line ∧ Utf8 i.line := by
  cases i with
  | heading t => exact ⟨h.2.1, h.1⟩
  | command n name about =>
    obtain ⟨h0, h1, h2, h3⟩ := h
    have hw : IsWord (enc name) := ⟨name, rfl, h0, h1⟩
    refine ⟨?_, ?_⟩
    · simp only [Item.line, List.mem_append, not_or]
      refine ⟨⟨?_, word_lf hw⟩, ?_⟩
      · intro hm
        have := List.eq_of_mem_replicate hm
        revert this
        decide
      · rw [ascii_mem_enc (by decide)]
        exact h2
    · refine ⟨List.replicate (n + 1) ' ' ++ name ++ about, ?_⟩
      have : ∀ k, List.replicate k SP = enc (List.replicate k ' ') := by
        intro k
        induction k with
        | zero => rfl
        | succ k ihk => rw [List.replicate_succ, List.replicate_succ, enc_cons, ihk]; rfl
      rw [Item.line, this, ← enc_append, ← enc_append]
      rfl

theorem x_listing_utf8 : ∀ {ps : List Bytes}, (∀ p ∈ ps, Utf8 p) → Utf8 (joinWith LF ps)
  | [], _ => ⟨[], rfl⟩
  | [p], h => h p (by simp)
  | p :: q :: ps, h => by
    obtain ⟨a, ha⟩ := h p (by simp)
    obtain ⟨b, hb⟩ := x_listing_utf8 (ps := q :: ps) fun x hx => h x (by simp [hx])
    refine ⟨a ++ '\n' :: b, ?_⟩
    rw [joinWith, hb, ha]
    · simp
      rfl
    · simp

theorem x_has {e : Env} {is : List Item} (h0 : is ≠ []) (h : ∀ i ∈ is, i.Ok)
    (hp : Prints e.outside [b!"cargo", b!"--list"] (listing is)) (cmd : Bytes) (w : Site) :
    hasCargoSubcmd cmd e w =
      (.ok (decide (cmd ∈ listedNames is)), { w with ran := w.ran ++ [[b!"cargo", b!"--list"]] }) := by
  have hu : Utf8 (listing is) := x_listing_utf8 (by
    intro p hp
    obtain ⟨i, hi, rfl⟩ := List.mem_map.1 hp
    exact (x_items_lf (h i hi)).2)
  unfold hasCargoSubcmd cargo
  rw [x_bind, x_output_prints hp hu]
  simp only
  rw [listing, splitOn_fields, fields_joinWith LF _ (by simpa using h0) (by
    intro p hp
    obtain ⟨i, hi, rfl⟩ := List.mem_map.1 hp
    exact (x_items_lf (h i hi)).1), x_anyLine is h]

/-! ### Setup -/

theorem x_run (c : Argv) (e : Env) (w : Site) :
    (∃ r, run c e w = (r, { w with ran := w.ran ++ [c] }) ∧ (r = .ok () ↔ (e.outside (w.ran ++ [c])).any (·.success) = true)) := by
  unfold run
  rw [x_bind]
  simp only [spawn]
  cases h : e.outside (w.ran ++ [c]) with
  | none => exact ⟨.error (.error none), rfl, by simp⟩
  | some r =>
    simp only [check]
    by_cases hs : r.success = true
    · exact ⟨.ok (), by simp [hs, give], by simp [hs]⟩
    · exact ⟨_, by simp only [hs]; rfl, by simp [hs]⟩

/-- Run commands one after the other. -/
def runAll : List Argv → Job Unit
  | [] => give ()
  | c :: cs => run c >>= fun _ => runAll cs

theorem x_runAll (e : Env) : ∀ (plan : List Argv) (w : Site),
    (runAll plan e w).2 = { w with ran := (untilFailed e.outside w.ran plan).1 } ∧
    ((runAll plan e w).1 = .ok () ↔ (untilFailed e.outside w.ran plan).2 = true)
  | [], w => by simp [runAll, untilFailed, give]
  | c :: cs, w => by
    obtain ⟨r, h1, h2⟩ := x_run c e w
    rw [runAll, x_bind, h1, untilFailed]
    cases r with
    | error f =>
      have : ¬ (e.outside (w.ran ++ [c])).any (·.success) = true := by
        intro h
        cases h2.2 h
      simp only
      rw [if_neg this]
      exact ⟨rfl, by simp⟩
    | ok u =>
      rw [if_pos (h2.1 rfl)]
      exact x_runAll e cs { w with ran := w.ran ++ [c] }

end Tmi.Proofs
