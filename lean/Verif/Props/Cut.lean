/-
C120: a call, or a process, that is cut short has done a beginning of what it would have done; and no call depends on
what happens after it.
-/
import Verif.Spec.Cut
import Verif.Proofs.Cut
import Verif.Proofs.Samples

namespace Tmi.Props
open Tmi.Model Tmi.Spec Tmi.Proofs

theorem make_cut (b : Build) (k : Call) (c : Client) (l : List Effect) (s : List Answer) :
    ∃ used, s = used ++ (k.make b ⟨c, l, s⟩).2.script ∧ l <+: (k.make b ⟨c, l, s⟩).2.log ∧
      (∀ t, (k.make b ⟨c, l, s⟩).2.log <+: (k.make b ⟨c, l, used ++ t⟩).2.log) ∧
      ((k.make b ⟨c, l, s⟩).1.dropped = false → ∀ t, k.make b ⟨c, l, used ++ t⟩ =
        ((k.make b ⟨c, l, s⟩).1, ⟨(k.make b ⟨c, l, s⟩).2.client, (k.make b ⟨c, l, s⟩).2.log, t⟩)) := by
  cases k with
  | send cmd =>
    obtain ⟨used, h1, h2, h3, h4⟩ := Cut.send cmd c l s
    refine ⟨used, h1, h2, h3, fun h t => ?_⟩
    simp only [Call.make] at h ⊢
    rw [h4 (fun e => by rw [e] at h; cases h) t]
  | recv =>
    obtain ⟨used, h1, h2, h3, h4⟩ := Cut.recv b c l s
    refine ⟨used, h1, h2, h3, fun h t => ?_⟩
    simp only [Call.make] at h ⊢
    rw [h4 (fun e => by rw [e] at h; cases h) t]
  | reconnect =>
    obtain ⟨used, h1, h2, h3, h4⟩ := Cut.reconnect b c l s
    refine ⟨used, h1, h2, h3, fun h t => ?_⟩
    simp only [Call.make] at h ⊢
    rw [h4 (fun e => by rw [e] at h; cases h) t]

/-- C120: the answers of the world that a call uses are the first ones.  If it came back, what it gave, what was seen
of it and the client it left behind depend on nothing that came after. -/
theorem C120_past (b : Build) (k : Call) (w : World) :
    ∃ used, w.script = used ++ (k.make b w).2.script ∧ w.log <+: (k.make b w).2.log ∧
      ((k.make b w).1.dropped = false → ∀ later, k.make b { w with script := used ++ later } =
        ((k.make b w).1, { (k.make b w).2 with script := later })) := by
  obtain ⟨used, h1, h2, -, h4⟩ := make_cut b k w.client w.log w.script
  exact ⟨used, h1, h2, h4⟩

/-- C120: a call that was cut short at any point, by dropping its future or by killing the process, has done a
beginning of what it would have done, whatever would have happened then; and if it came back before, it has done
all of it. -/
theorem C120_call (b : Build) (k : Call) (w : World) (later : List Answer) :
    (k.make b w).2.log <+: (k.make b { w with script := w.script ++ later }).2.log ∧
      ((k.make b w).1.dropped = false → k.make b { w with script := w.script ++ later } =
        ((k.make b w).1, { (k.make b w).2 with script := (k.make b w).2.script ++ later })) := by
  obtain ⟨used, h1, -, h3, h4⟩ := make_cut b k w.client w.log w.script
  have e : w.script ++ later = used ++ ((k.make b w).2.script ++ later) := by
    rw [← List.append_assoc]
    exact congrArg (· ++ later) h1
  rw [e]
  exact ⟨h3 _, fun h => h4 h _⟩

/-- C120: the same for `connect`. -/
theorem C120_connect (b : Build) (cfg : Config) (w : World) (later : List Answer) :
    (connect b cfg w).2.log <+: (connect b cfg { w with script := w.script ++ later }).2.log ∧
      ((connect b cfg w).1 ≠ .error .dropped → connect b cfg { w with script := w.script ++ later } =
        ((connect b cfg w).1, { (connect b cfg w).2 with script := (connect b cfg w).2.script ++ later })) := by
  obtain ⟨used, h1, -, h3, h4⟩ := Cut.connect b cfg w.client w.log w.script
  have e : w.script ++ later = used ++ ((connect b cfg w).2.script ++ later) := by
    rw [← List.append_assoc]
    exact congrArg (· ++ later) h1
  rw [e]
  exact ⟨h3 _, fun h => h4 h _⟩

theorem run_more (b : Build) (p : Program) : ∀ (n : Nat) (before : List Gave) (w : World),
    w.log <+: (p.run b n before w).2.log ∧ before <+: (p.run b n before w).1
  | 0, _, _ => ⟨List.prefix_refl _, List.prefix_refl _⟩
  | n + 1, before, w => by
    rw [Program.run]
    cases p before with
    | none => exact ⟨List.prefix_refl _, List.prefix_refl _⟩
    | some k =>
      obtain ⟨_, _, h, _⟩ := make_cut b k w.client w.log w.script
      obtain ⟨i1, i2⟩ := run_more b p n (before ++ [(k.make b w).1]) (k.make b w).2
      exact ⟨h.trans i1, (List.prefix_append _ _).trans i2⟩

theorem mortal_ends (b : Build) (p : Program) {before : List Gave} (h : before.any Gave.dropped = true) (w : World) :
    ∀ n, (mortal p).run b n before w = (before, w)
  | 0 => rfl
  | n + 1 => by
    rw [Program.run]
    have : mortal p before = none := by unfold mortal; rw [if_pos h]
    rw [this]

/-- C120: a program whose process is killed at any point, during any of its calls: the server has seen a beginning of
what it would have seen had the process lived on, whatever would have happened then, and the calls that came back
gave what they would have given. -/
theorem C120_killed (b : Build) (p : Program) (later : List Answer) : ∀ (n : Nat) (before : List Gave) (w : World),
    let short := (mortal p).run b n before w
    let long := (mortal p).run b n before { w with script := w.script ++ later }
    short.2.log <+: long.2.log ∧
      (long = (short.1, { short.2 with script := short.2.script ++ later }) ∨
        ∃ gs g, short.1 = gs ++ [g] ∧ g.dropped = true ∧ gs <+: long.1)
  | 0, before, w => ⟨List.prefix_refl _, .inl rfl⟩
  | n + 1, before, w => by
    simp only []
    rw [Program.run, Program.run]
    cases hp : mortal p before with
    | none => exact ⟨List.prefix_refl _, .inl rfl⟩
    | some k =>
      simp only []
      obtain ⟨h1, h2⟩ := C120_call b k w later
      cases hd : (k.make b w).1.dropped with
      | false =>
        rw [h2 hd]
        exact C120_killed b p later n (before ++ [(k.make b w).1]) (k.make b w).2
      | true =>
        rw [mortal_ends b p (by simp [hd])]
        obtain ⟨i1, i2⟩ := run_more b (mortal p) n (before ++ [(k.make b { w with script := w.script ++ later }).1])
          (k.make b { w with script := w.script ++ later }).2
        exact ⟨h1.trans i1, .inr ⟨before, _, rfl, hd, (List.prefix_append _ _).trans i2⟩⟩

/-! Non-vacuity: a program that reconnects and then sends a message, killed while five bytes of the greeting were
sent; had it lived, the message would have been sent. -/

def cutProgram : Program := fun gs => match gs with
  | [] => some .reconnect
  | [_] => some (.send (.privmsg (b!"#a") (b!"hi") none none))
  | _ => none

def cutWorld : World := sampleWorld [.slept, .opened, .accept 5]
def cutLater : List Answer := goodReplies ++ [.accept 1000, .flushed]

example : ((mortal cutProgram).run ⟨.scalar, true⟩ 2 [] cutWorld).2.log =
    [.sleep 10, .open_, .connected, .wrote (b!"CAP R")] := by decide +kernel
example : ((mortal cutProgram).run ⟨.scalar, true⟩ 2 [] cutWorld).1.map Gave.dropped = [true] := by decide +kernel
example : written ((mortal cutProgram).run ⟨.scalar, true⟩ 2 [] { cutWorld with script := cutWorld.script ++ cutLater }).2.log =
    hello sampleConfig.credentials ++ b!"PRIVMSG #a :hi\r\n" := by decide +kernel
example := C120_killed ⟨.scalar, true⟩ cutProgram cutLater 2 [] cutWorld
example : (Call.make ⟨.scalar, true⟩ .recv (sampleWorld [.eof])).1.dropped = false := by decide +kernel

end Tmi.Props
