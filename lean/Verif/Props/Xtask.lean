/-
C124, C125: the tasks of the repository.
-/
import Verif.Proofs.Xtask

namespace Tmi.Props
open Tmi.Spec Tmi.Model Tmi.Proofs
open Tmi.Model.Xtask

/-! ### C124: the changelog -/

/-- C124: if git lists commits for the range, and the disk accepts the text, the task succeeds and puts a section with
an entry for each of these commits in front of what the changelog was; it has run no commands but those that ask git. -/
theorem C124_added_partial (e : Env) (w : Site) (since last old : Bytes) (until? : Option Bytes) (cs : List Commit)
    (hg : GitHas e.outside (since ++ b!".." ++ until?.getD (b!"HEAD")) cs last) (h0 : cs ≠ []) (hc : ∀ c ∈ cs, c.Ok)
    (hl : Utf8 last) (hw : w.file = some old) (ho : Utf8 old)
    (hd : e.canOpen = true ∧ (∀ n ∈ e.accepts, 0 < n) ∧ (changes since last cs ++ old).length ≤ e.accepts.length) :
    (changelog since until? e w).1 = .ok () ∧
    (changelog since until? e w).2.file = some (changes since last cs ++ old) ∧
    (changelog since until? e w).2.ran = w.ran ++
      ([[b!"git", b!"log", since ++ b!".." ++ until?.getD (b!"HEAD"), b!"--pretty=format:%h"]] ++
       (cs.map fun c => [b!"git", b!"show", b!"--quiet", b!"--pretty=format:%B", c.hash]) ++
       [[b!"git", b!"log", b!"-1", b!"--pretty=format:%h"]]) := by
  rw [changelog_eq, x_bind, x_gather hg h0 hc hl w]
  simp only
  rw [x_bind]
  simp only [readFile, hw, (isUtf8_iff old).2 ho, if_true, writeFile, hd.1]
  have hk := x_writeRest_ok (changes since last cs ++ old) [] e.accepts
    (Site.put { ran := w.ran ++
      ([[b!"git", b!"log", since ++ b!".." ++ until?.getD (b!"HEAD"), b!"--pretty=format:%h"]] ++
       (cs.map fun c => [b!"git", b!"show", b!"--quiet", b!"--pretty=format:%B", c.hash]) ++
       [[b!"git", b!"log", b!"-1", b!"--pretty=format:%h"]]), file := some old, past := w.past } []) hd.2.1 hd.2.2
  obtain ⟨added, m1, m2, m3, m6, m4, m5⟩ := writeRest_moments (changes since last cs ++ old) [] e.accepts
    (Site.put { ran := w.ran ++
      ([[b!"git", b!"log", since ++ b!".." ++ until?.getD (b!"HEAD"), b!"--pretty=format:%h"]] ++
       (cs.map fun c => [b!"git", b!"show", b!"--quiet", b!"--pretty=format:%B", c.hash]) ++
       [[b!"git", b!"log", b!"-1", b!"--pretty=format:%h"]]), file := some old, past := w.past } []) rfl
  exact ⟨hk, m4 hk, m2⟩

/-- Every run: what it leaves, and the moments in between. -/
theorem changelog_run (e : Env) (w : Site) (since : Bytes) (until? : Option Bytes) (old : Bytes) (hw : w.file = some old) :
    ((∃ f, (changelog since until? e w).1 = .error f) ∧ (changelog since until? e w).2.file = w.file ∧
      (changelog since until? e w).2.past = w.past) ∨
    e.canOpen = true ∧ ∃ new added, new ≠ [] ∧ (changelog since until? e w).2.past = added ++ w.file :: w.past ∧
      (∀ p ∈ (changelog since until? e w).2.file :: added, ∃ s, p = some s ∧ s <+: new ++ old) ∧
      some [] ∈ (changelog since until? e w).2.file :: added ∧
      ((changelog since until? e w).1 = .ok () → (changelog since until? e w).2.file = some (new ++ old)) ∧
      ∀ f, (changelog since until? e w).1 = .error f → f = .error none ∧
        (changelog since until? e w).2.file ≠ some (new ++ old) := by
  rw [changelog_eq, x_bind]
  obtain ⟨cs, q1, _⟩ := leaves_gather since until? e w
  rcases hh : gather since until? e w with ⟨r, w1⟩
  rw [hh] at q1
  simp only at q1
  subst q1
  cases r with
  | error f => exact .inl ⟨⟨f, rfl⟩, rfl, rfl⟩
  | ok new =>
    have hne := gather_ne hh
    simp only
    rw [x_bind]
    simp only [readFile, hw]
    by_cases hu : isUtf8 old = true
    · simp only [hu, if_true, writeFile]
      by_cases hc : e.canOpen = true
      · simp only [hc, if_true]
        right
        obtain ⟨added, m1, m2, m3, m6, m4, m5⟩ := writeRest_moments (new ++ old) [] e.accepts
          (Site.put { ran := w.ran ++ cs, file := w.file, past := w.past } []) rfl
        rw [List.nil_append] at m3 m4 m5
        rw [hw] at m1 m2 m3 m4 m5 m6
        exact ⟨trivial, new, added, hne, m1, m3, m6, m4, m5⟩
      · simp only [hc]
        exact .inl ⟨⟨_, rfl⟩, hw.symm ▸ rfl, rfl⟩
    · simp only [hu]
      exact .inl ⟨⟨_, rfl⟩, hw.symm ▸ rfl, rfl⟩

/-- C124: a run that succeeds takes nothing away: what the changelog was is the end of what it is, whatever git says. -/
theorem C124_kept (e : Env) (w : Site) (since : Bytes) (until? : Option Bytes) (old : Bytes) (hw : w.file = some old)
    (h : (changelog since until? e w).1 = .ok ()) :
    ∃ new, new ≠ [] ∧ (changelog since until? e w).2.file = some (new ++ old) := by
  rcases changelog_run e w since until? old hw with ⟨⟨f, hf⟩, _⟩ | ⟨_, new, _, h0, _, _, _, h4, _⟩
  · rw [h] at hf; cases hf
  · exact ⟨new, h0, h4 h⟩

/-- C124: a run that does not succeed has not touched the changelog, unless writing it has failed: then it is a
beginning of the new text. -/
theorem C124_failed (e : Env) (w : Site) (since : Bytes) (until? : Option Bytes) (old : Bytes) (hw : w.file = some old)
    (f : Fail) (h : (changelog since until? e w).1 = .error f) :
    ((changelog since until? e w).2.file = w.file ∧ (changelog since until? e w).2.past = w.past) ∨
    f = .error none ∧ e.canOpen = true ∧ ∃ new s, (changelog since until? e w).2.file = some s ∧
      s <+: new ++ old ∧ s ≠ new ++ old := by
  rcases changelog_run e w since until? old hw with ⟨_, h1, h2⟩ | ⟨hc, new, added, _, _, h2, _, _, h4⟩
  · exact .inl ⟨h1, h2⟩
  · obtain ⟨s, h5, h6⟩ := h2 _ (List.mem_cons_self ..)
    refine .inr ⟨(h4 f h).1, hc, new, s, h5, h6, ?_⟩
    rintro rfl
    exact (h4 f h).2 h5

/-- C124: at every moment of a run the changelog is what it was, or a beginning of what it will be. -/
theorem C124_moments (e : Env) (w : Site) (since : Bytes) (until? : Option Bytes) (old : Bytes) (hw : w.file = some old) :
    ∃ new added, (changelog since until? e w).2.past = added ++ w.past ∧
      ∀ p ∈ (changelog since until? e w).2.file :: added, p = some old ∨ ∃ s, p = some s ∧ s <+: new ++ old := by
  rcases changelog_run e w since until? old hw with ⟨_, h1, h2⟩ | ⟨_, new, added, _, h1, h2, _⟩
  · exact ⟨[], [], by simpa using h2, by simp [h1, hw]⟩
  · refine ⟨new, added ++ [w.file], by simpa using h1, ?_⟩
    intro p hp
    rcases List.mem_cons.1 hp with h | h
    · exact .inr (h2 p (h ▸ List.mem_cons_self ..))
    · rcases List.mem_append.1 h with h | h
      · exact .inr (h2 p (List.mem_cons_of_mem _ h))
      · exact .inl ((List.mem_singleton.1 h).trans hw)

/-- C124: so the changelog is not safe when the task is killed: in every run that succeeds there is a moment at which
it is empty. -/
theorem C124_killed_negation (e : Env) (w : Site) (since : Bytes) (until? : Option Bytes) (old : Bytes)
    (hw : w.file = some old) (h : (changelog since until? e w).1 = .ok ()) :
    ∃ added, (changelog since until? e w).2.past = added ++ w.past ∧ some [] ∈ added := by
  rcases changelog_run e w since until? old hw with ⟨⟨f, hf⟩, _⟩ | ⟨_, new, added, h0, h1, _, h2, h4, _⟩
  · rw [h] at hf; cases hf
  · refine ⟨added ++ [w.file], by simpa using h1, ?_⟩
    rcases List.mem_cons.1 h2 with h3 | h3
    · rw [h4 h] at h3
      have : [] = new ++ old := by simpa using h3
      have := List.append_eq_nil_iff.1 this.symm
      exact absurd this.1 h0
    · simp [h3]

/-- C124: whatever happens, the only commands that are run are `git log` and `git show`. -/
theorem C124_only_reads (e : Env) (w : Site) (since : Bytes) (until? : Option Bytes) :
    ∃ cs, (changelog since until? e w).2.ran = w.ran ++ cs ∧ ∀ c ∈ cs, OnlyReads c := by
  rw [changelog_eq, x_bind]
  obtain ⟨cs, q1, q2⟩ := leaves_gather since until? e w
  refine ⟨cs, ?_, q2⟩
  rcases hh : gather since until? e w with ⟨r, w1⟩
  rw [hh] at q1
  simp only at q1
  subst q1
  cases r with
  | error f => rfl
  | ok new =>
    simp only
    rw [x_bind]
    simp only [readFile]
    cases hf : w.file with
    | none => rfl
    | some old =>
      by_cases hu : isUtf8 old = true
      · simp only [hu, if_true, writeFile]
        split
        · obtain ⟨_, _, m2, _⟩ := writeRest_moments (new ++ old) [] e.accepts
            (Site.put { ran := w.ran ++ cs, file := some old, past := w.past } []) rfl
          exact m2
        · rfl
      · simp only [hu]
        rfl

/-- C124: without commits in the range there is no section: git is asked for a commit without a name, and does not know it. -/
theorem C124_nothing_new (e : Env) (w : Site) (since : Bytes) (until? : Option Bytes)
    (hl : Prints e.outside [b!"git", b!"log", since ++ b!".." ++ until?.getD (b!"HEAD"), b!"--pretty=format:%h"] [])
    (hs : ∀ before, (e.outside (before ++ [[b!"git", b!"show", b!"--quiet", b!"--pretty=format:%B", []]])).all
      (fun r => !r.success) = true) :
    (∃ t, (changelog since until? e w).1 = .error (.error t)) ∧ (changelog since until? e w).2.file = w.file ∧
      (changelog since until? e w).2.past = w.past := by
  unfold changelog git
  rw [x_bind, x_output_prints hl ⟨[], rfl⟩]
  simp only
  have ht : splitOn LF (trim []) = [[]] := by decide
  rw [ht, x_bind, commitLines, x_bind]
  have key : ∀ w : Site, ∃ t, runWithOutput (git [b!"show", b!"--quiet", b!"--pretty=format:%B", []]) e w =
      (.error (.error t), { w with ran := w.ran ++ [[b!"git", b!"show", b!"--quiet", b!"--pretty=format:%B", []]] }) := by
    intro w
    have := hs w.ran
    unfold runWithOutput git
    rw [x_bind]
    simp only [spawn]
    cases hh : e.outside (w.ran ++ [[b!"git", b!"show", b!"--quiet", b!"--pretty=format:%B", []]]) with
    | none => exact ⟨none, rfl⟩
    | some r =>
      rw [hh] at this
      simp only [Option.all_some, Bool.not_eq_true'] at this
      refine ⟨some (b!"Process exited with error code " ++ r.code.getD (b!"-1")), ?_⟩
      simp only
      rw [x_bind]
      simp only [check, this]
      rfl
  obtain ⟨t, ht⟩ := key { w with ran := w.ran ++ [[b!"git", b!"log", since ++ b!".." ++ until?.getD (b!"HEAD"), b!"--pretty=format:%h"]] }
  rw [ht]
  exact ⟨⟨t, rfl⟩, rfl, rfl⟩

/-! A repository with three commits, newest first, whose tags are their hashes. -/

/-- The history. -/
def someCommits : List Commit :=
  [⟨b!"ccc", b!"Third", some (b!"\nBy someone\n")⟩, ⟨b!"bbb", b!"Second", none⟩, ⟨b!"aaa", b!"First", none⟩]

/-- Git there, and a disk that accepts 40 bytes at a time. -/
def someEnv : Env := ⟨linear someCommits, true, List.replicate 1000 40⟩

/-- Nothing has been run, and the changelog has one line. -/
def someSite : Site := ⟨[], some (b!"old"), []⟩

theorem some_hash (cs : List Char) (h : cs ≠ [] ∧ ∀ c ∈ cs, isWhite c = false) : IsWord (enc cs) := ⟨cs, rfl, h.1, h.2⟩

theorem some_ok : ∀ c ∈ someCommits, c.Ok := by
  intro c hc
  simp only [someCommits, List.mem_cons, List.not_mem_nil, or_false] at hc
  rcases hc with rfl | rfl | rfl
  · exact ⟨some_hash ['c', 'c', 'c'] (by decide), by decide, (isUtf8_iff _).1 (by decide +kernel)⟩
  · exact ⟨some_hash ['b', 'b', 'b'] (by decide), by decide, (isUtf8_iff _).1 (by decide +kernel)⟩
  · exact ⟨some_hash ['a', 'a', 'a'] (by decide), by decide, (isUtf8_iff _).1 (by decide +kernel)⟩

/-- What git prints does not depend on what was run before. -/
theorem linear_prints {cs : List Commit} {c : Argv} {r : Ran} (h : linear cs [c] = some r) (hs : r.success = true) :
    Prints (linear cs) c r.stdout := by
  intro before
  refine ⟨r.code, ?_⟩
  have : linear cs (before ++ [c]) = linear cs [c] := by
    unfold linear
    simp
  rw [this, h, ← hs]

theorem some_git : GitHas someEnv.outside (b!"aaa..HEAD") (someCommits.take 2) (b!"ccc") where
  log := linear_prints (r := ⟨true, some (b!"0"), b!"ccc\nbbb"⟩) (by decide +kernel) rfl
  shown := by
    intro c hc
    simp only [someCommits, List.take, List.mem_cons, List.not_mem_nil, or_false] at hc
    rcases hc with rfl | rfl
    · exact linear_prints (r := ⟨true, some (b!"0"), b!"Third\n\nBy someone\n"⟩) (by decide +kernel) rfl
    · exact linear_prints (r := ⟨true, some (b!"0"), b!"Second"⟩) (by decide +kernel) rfl
  last := linear_prints (r := ⟨true, some (b!"0"), b!"ccc"⟩) (by decide +kernel) rfl

example := C124_added_partial someEnv someSite (b!"aaa") (b!"ccc") (b!"old") none (someCommits.take 2) some_git (by decide)
  (fun c hc => some_ok c (List.mem_of_mem_take hc)) ((isUtf8_iff _).1 (by decide +kernel)) rfl
  ((isUtf8_iff _).1 (by decide +kernel)) ⟨rfl, by decide +kernel, by decide +kernel⟩

theorem some_run : (changelog (b!"aaa") none someEnv someSite).1 = .ok () := by decide +kernel
example := C124_kept someEnv someSite (b!"aaa") none (b!"old") rfl some_run
example := C124_killed_negation someEnv someSite (b!"aaa") none (b!"old") rfl some_run
example := C124_moments someEnv someSite (b!"aaa") none (b!"old") rfl
example := C124_only_reads someEnv someSite (b!"aaa") none
/-- A disk that is full after 40 bytes. -/
example := C124_failed ⟨linear someCommits, true, [40]⟩ someSite (b!"aaa") none (b!"old") rfl (.error none) (by decide +kernel)
example := C124_nothing_new someEnv someSite (b!"ccc") none
  (linear_prints (r := ⟨true, some (b!"0"), []⟩) (by decide +kernel) rfl) (by
    intro before
    have : linear someCommits (before ++ [[b!"git", b!"show", b!"--quiet", b!"--pretty=format:%B", []]]) =
        linear someCommits [[b!"git", b!"show", b!"--quiet", b!"--pretty=format:%B", []]] := by unfold linear; simp
    show (linear someCommits _).all _ = true
    rw [this]
    decide +kernel)

/-- C124: the help text says that the section includes the commit it starts from; it does not. -/
theorem C124_since_negation :
    (changelog (b!"aaa") none someEnv someSite).2.file =
      some (changes (b!"aaa") (b!"ccc") (after someCommits (b!"aaa") (b!"ccc")) ++ b!"old") ∧
    (changelog (b!"aaa") none someEnv someSite).2.file ≠
      some (changes (b!"aaa") (b!"ccc") (fromTo someCommits (b!"aaa") (b!"ccc")) ++ b!"old") := by
  decide +kernel

/-- C124: and when it is told where to end, the link still leads to the newest commit. -/
theorem C124_until_negation :
    (changelog (b!"aaa") (some (b!"bbb")) someEnv someSite).2.file =
      some (changes (b!"aaa") (b!"ccc") (after someCommits (b!"aaa") (b!"bbb")) ++ b!"old") ∧
    (changelog (b!"aaa") (some (b!"bbb")) someEnv someSite).2.file ≠
      some (changes (b!"aaa") (b!"bbb") (after someCommits (b!"aaa") (b!"bbb")) ++ b!"old") := by
  decide +kernel

/-! ### C125: the other tasks -/

/-- C125: a command is found in the list that cargo prints exactly if it is there. -/
theorem C125_found (e : Env) (is : List Item) (h0 : is ≠ []) (h : ∀ i ∈ is, i.Ok)
    (hp : Prints e.outside [b!"cargo", b!"--list"] (listing is)) (cmd : Bytes) (w : Site) :
    (hasCargoSubcmd cmd e w).1 = .ok true ↔ cmd ∈ listedNames is := by
  rw [x_has h0 h hp]
  simp

/-- C125: and no list of that form makes the task panic or fail. -/
theorem C125_found_total (e : Env) (is : List Item) (h0 : is ≠ []) (h : ∀ i ∈ is, i.Ok)
    (hp : Prints e.outside [b!"cargo", b!"--list"] (listing is)) (cmd : Bytes) (w : Site) :
    ∃ b, (hasCargoSubcmd cmd e w).1 = .ok b := by
  rw [x_has h0 h hp]
  exact ⟨_, rfl⟩

/-- A list as cargo prints it. -/
def someList : List Item :=
  [.heading (b!"Installed Commands:"), .command 3 ['b'] [' ', 'a', 'l', 'i', 'a', 's'],
   .command 3 ['b', 'i', 'n', 's', 't', 'a', 'l', 'l'] [], .heading []]

theorem some_listing : listing someList = b!"Installed Commands:\n    b alias\n    binstall\n" := by decide +kernel

theorem some_items : ∀ i ∈ someList, i.Ok := by
  intro i hi
  simp only [someList, List.mem_cons, List.not_mem_nil, or_false] at hi
  rcases hi with rfl | rfl | rfl | rfl
  · exact ⟨(isUtf8_iff _).1 (by decide +kernel), by decide, by decide⟩
  · exact ⟨by decide, by decide, by decide, by decide⟩
  · exact ⟨by decide, by decide, by decide, by decide⟩
  · exact ⟨⟨[], rfl⟩, by decide, by decide⟩

/-- A cargo that prints the list for every command. -/
def someCargo : Env := ⟨fun _ => some ⟨true, some (b!"0"), listing someList⟩, true, []⟩

example := C125_found someCargo someList (by decide) some_items (fun _ => ⟨_, rfl⟩) (b!"binstall") someSite
example := C125_found_total someCargo someList (by decide) some_items (fun _ => ⟨_, rfl⟩) (b!"install") someSite
example : (hasCargoSubcmd (b!"binstall") someCargo someSite).1 = .ok true ∧
    (hasCargoSubcmd (b!"alias") someCargo someSite).1 = .ok false := by decide +kernel

/-- C125: a line of nothing but blanks before the command makes the task panic. -/
theorem C125_blank :
    (hasCargoSubcmd (b!"binstall")
      ⟨fun _ => some ⟨true, some (b!"0"), b!"Installed Commands:\n  \n    binstall\n"⟩, true, []⟩ someSite).1 = .error .panic := by
  decide +kernel

/-- What `cargo x setup` is to run: `binstall` installs the tools with `cargo binstall`, which is installed first if it
is `missing`. -/
def setupPlan (binstall missing : Bool) : List Argv :=
  (if binstall then
    (if missing then [[b!"cargo", b!"install", b!"cargo-binstall"]] else []) ++
      [[b!"cargo", b!"binstall", b!"--no-confirm", b!"--locked", b!"cargo-insta"]]
   else [[b!"cargo", b!"install", b!"--locked", b!"cargo-insta"]]) ++
  [[b!"rustup", b!"component", b!"add", b!"rustfmt", b!"clippy"]]

/-- C125: setting up without `--binary` runs the two commands in order until one fails, and succeeds exactly if both do. -/
theorem C125_setup (e : Env) (w : Site) :
    (setup false e w).2 = { w with ran := (untilFailed e.outside w.ran (setupPlan false false)).1 } ∧
    ((setup false e w).1 = .ok () ↔ (untilFailed e.outside w.ran (setupPlan false false)).2 = true) := by
  have : setup false = runAll (setupPlan false false) := by
    funext e w
    show (run _ >>= fun _ => run _) e w = (run _ >>= fun _ => run _ >>= fun _ => give ()) e w
    rw [x_give]
    rfl
  rw [this]
  exact x_runAll e _ w

/-- C125: setting up with `--binary` first asks cargo which commands there are, installs `cargo binstall` exactly if it is
not among them, and then runs the other two commands; it stops at the first that fails, and succeeds exactly if all do. -/
theorem C125_setup_binary (e : Env) (is : List Item) (h0 : is ≠ []) (h : ∀ i ∈ is, i.Ok)
    (hp : Prints e.outside [b!"cargo", b!"--list"] (listing is)) (w : Site) :
    (setup true e w).2 = { w with ran := (untilFailed e.outside (w.ran ++ [[b!"cargo", b!"--list"]])
      (setupPlan true (decide (b!"binstall" ∉ listedNames is)))).1 } ∧
    ((setup true e w).1 = .ok () ↔ (untilFailed e.outside (w.ran ++ [[b!"cargo", b!"--list"]])
      (setupPlan true (decide (b!"binstall" ∉ listedNames is)))).2 = true) := by
  have : setup true = hasCargoSubcmd (b!"binstall") >>= fun has => runAll (setupPlan true (!has)) := by
    have e1 : ∀ has, runAll (setupPlan true (!has)) = (if !has then run (cargo [b!"install", b!"cargo-binstall"]) >>= fun _ =>
        run (cargo ([b!"binstall", b!"--no-confirm", b!"--locked"] ++ tools)) >>= fun _ =>
        run (rustup ([b!"component", b!"add"] ++ components)) else
        run (cargo ([b!"binstall", b!"--no-confirm", b!"--locked"] ++ tools)) >>= fun _ =>
        run (rustup ([b!"component", b!"add"] ++ components))) := by
      intro has
      cases has
      · show (run _ >>= fun _ => run _ >>= fun _ => run _ >>= fun _ => give ()) = _
        rw [x_give]
        rfl
      · show (run _ >>= fun _ => run _ >>= fun _ => give ()) = _
        rw [x_give]
        rfl
    rw [funext e1]
    unfold setup
    simp only [if_true]
  rw [this, x_bind, x_has h0 h hp]
  simp only
  have hd : (!decide (b!"binstall" ∈ listedNames is)) = decide (b!"binstall" ∉ listedNames is) := by simp
  rw [hd]
  exact x_runAll e _ _

/-- C125: `cargo x test` runs one command, with the arguments it was given at the end, and succeeds exactly if that does. -/
theorem C125_test (e : Env) (w : Site) (rest : List Bytes) :
    let cmd := [b!"cargo", b!"insta", b!"test", b!"--all-features", b!"--lib", b!"--review"] ++ rest
    (test rest e w).2 = { w with ran := w.ran ++ [cmd] } ∧
    ((test rest e w).1 = .ok () ↔ (e.outside (w.ran ++ [cmd])).any (·.success) = true) := by
  obtain ⟨r, h1, h2⟩ := x_run ([b!"cargo", b!"insta", b!"test", b!"--all-features", b!"--lib", b!"--review"] ++ rest) e w
  have : test rest = run ([b!"cargo", b!"insta", b!"test", b!"--all-features", b!"--lib", b!"--review"] ++ rest) := rfl
  rw [this, h1]
  exact ⟨rfl, h2⟩

/-- C125: the exit code of a task is 0 exactly if the task succeeds, and then nothing is said on stderr. -/
theorem C125_exit (task : Job Unit) (io : Bytes) (e : Env) (w : Site) :
    ((Xtask.main task io e w).1.1 = some 0 ↔ (task e w).1 = .ok ()) ∧
    ((task e w).1 = .ok () → (Xtask.main task io e w).1.2 = []) ∧
    (∀ t, (task e w).1 = .error (.error (some t)) → (Xtask.main task io e w).1 = (some 1, t)) ∧
    (Xtask.main task io e w).2 = (task e w).2 := by
  unfold Xtask.main
  rcases task e w with ⟨r, w1⟩
  rcases r with f | ⟨⟩
  · cases f with
    | panic => simp
    | error t => exact ⟨by simp, by simp, fun u hu => by simp at hu; simp [hu], rfl⟩
  · simp

example := C125_setup someCargo someSite
example := C125_setup_binary someCargo someList (by decide) some_items (fun _ => ⟨_, rfl⟩) someSite
example := C125_test someCargo someSite [b!"--", b!"parse"]
example := C125_exit (test []) (b!"not found") someCargo someSite
/-- The first command fails: the second is not run, and the error is told. -/
example : Xtask.main (setup false) (b!"not found") ⟨fun _ => some ⟨false, none, []⟩, true, []⟩ someSite =
    ((some 1, b!"Process exited with error code -1"),
     { someSite with ran := [[b!"cargo", b!"install", b!"--locked", b!"cargo-insta"]] }) := by decide +kernel

end Tmi.Props
