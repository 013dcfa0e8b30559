/-
Property C116: greeting programs do not set each other off.
-/
import Verif.Spec.Company
import Verif.Props.Relay

namespace Tmi.Props
open Tmi.Model Tmi.Spec Tmi.Proofs

/-! ## C116: programs among themselves -/

theorem says_eq {gs : List Greeter} (h : Company gs) {g : Greeter} (hg : g ∈ gs) :
    g.says = (g.told.map (·.1)).flatMap greeted := by
  refine greeting_requests (h.programs g hg) fun u hu => ?_
  obtain ⟨x, hx, rfl⟩ := List.mem_map.1 hu
  exact h.lines g hg x hx

theorem greeted_yo {u : Utterance} {r : Request} (h : r ∈ greeted u) : ∃ ch id, r = .say ch (b!"yo") (some id) := by
  unfold greeted at h
  split at h
  · split at h
    · rw [List.mem_singleton] at h; exact ⟨_, _, h⟩
    · cases h
  · cases h

theorem greeted_relayed {login : Bytes} {ch : Bytes} {id : Option Bytes} {s : Said}
    (h : Relays login (.say ch (b!"yo") id) s) : greeted (.spoken (.said s)) = [] := by
  cases s with
  | chat c =>
    obtain ⟨-, -, ht, -⟩ := h
    have : ¬ b!"!yo" <+: c.text := by
      intro hp
      obtain ⟨t, hp⟩ := hp
      rw [← hp] at ht
      cases hc : c.action <;> rw [hc] at ht <;> simp [actionText] at ht
    simp only [greeted]
    rw [if_neg this]
  | _ => exact False.elim h

/-- C116: what a greeting program says is what the words of others make it say: for each of their chat messages that
start with `!yo`, in order, `yo` in that channel as a reply to that message, and nothing else.  What the programs say
themselves, in whatever order and how often it is told to them, makes none of them say anything. -/
theorem C116_rest (gs : List Greeter) (h : Company gs) (g : Greeter) (hg : g ∈ gs) :
    g.says = g.fromOthers.flatMap greeted := by
  rw [says_eq h hg, Greeter.fromOthers]
  have key : ∀ x ∈ g.told, x.2 ≠ .other → greeted x.1 = [] := by
    rintro ⟨u, c⟩ hx hc
    cases c with
    | other => exact absurd rfl hc
    | program i n =>
      obtain ⟨g', r, s, h1, h2, rfl, h4⟩ := h.relayed g hg u i n hx
      have hr : r ∈ g'.says := List.mem_of_getElem? h2
      rw [says_eq h (List.mem_of_getElem? h1)] at hr
      obtain ⟨u', -, hu'⟩ := List.mem_flatMap.1 hr
      obtain ⟨ch, id, rfl⟩ := greeted_yo hu'
      exact greeted_relayed h4
  generalize g.told = l at key
  induction l with
  | nil => rfl
  | cons x l ih =>
    have ih := ih fun y hy => key y (by simp [hy])
    by_cases hc : x.2 = .other
    · simp [List.filter_cons, hc, ih]
    · simp [List.filter_cons, hc, ih, key x (by simp) hc]

theorem greeted_length (u : Utterance) : (greeted u).length = if u.asks then 1 else 0 := by
  unfold greeted Utterance.asks
  split
  · split <;> simp_all
  · rename_i h
    split
    · rename_i c; exact absurd rfl (h c)
    · rfl

/-- C116: so a program says as many things as others asked of it. -/
theorem C116_count (gs : List Greeter) (h : Company gs) (g : Greeter) (hg : g ∈ gs) :
    g.says.length = g.fromOthers.countP Utterance.asks := by
  rw [C116_rest gs h g hg]
  induction g.fromOthers with
  | nil => rfl
  | cons u us ih =>
    rw [List.flatMap_cons, List.length_append, ih, greeted_length, List.countP_cons]
    cases u.asks <;> simp <;> omega

/-! ### Samples -/

/-- The second program hears an answer of the first one before somebody writes to it. -/
def secondTold : List (Utterance × Cause) :=
  [(.spoken (.said (.chat (botSays (b!"a1") (b!"m2")))), .program 0 0), (.ping (b!"t"), .other),
   (.spoken (.said (.chat yoChat)), .other), (.spoken (.said (.chat (botSays (b!"a2") (b!"m3")))), .program 0 1)]

theorem second_did (b : Build) (cfg : Config) (chs : List Bytes) : ∃ ev, Did b cfg chs true (secondTold.map (·.1)) ev :=
  ⟨_, .next (by simp) (ws := []) ⟨by simp, by decide +kernel⟩ <|
    .next (by simp) (ws := [.wrote (b!"PONG :t\r\n")]) ⟨by simp, by decide +kernel⟩ <|
    .next (by simp) (ws := [.wrote (b!"@reply-parent-msg-id=m2 PRIVMSG #c :yo\r\n")]) ⟨by simp, by decide +kernel⟩ <|
    .next (by simp) (ws := []) ⟨by simp, by decide +kernel⟩ .done⟩

/-- Non-vacuity of C116: two programs, each of which says something, and the answers of the first are told to the second. -/
example (b : Build) : ∃ g₁ g₂ : Greeter, Company [g₁, g₂] ∧ g₁.says.length = 2 ∧ g₂.says.length = 1 ∧
    g₂.told = secondTold := by
  obtain ⟨ev₁, h1, h2⟩ := asksTwice_did b sampleConfig []
  obtain ⟨ev₂, h3⟩ := second_did b sampleConfig []
  let g₁ : Greeter := ⟨b, sampleConfig, [], b!"bot", asksTwice.map fun u => (u, .other), ev₁⟩
  let g₂ : Greeter := ⟨b, sampleConfig, [], b!"bot2", secondTold, ev₂⟩
  have hs : g₁.says = [.say (b!"#c") (b!"yo") (some (b!"m2")), .say (b!"#c") (b!"yo") (some (b!"m3"))] := by
    simp only [Greeter.says, g₁, h2]
    decide +kernel
  have hc : Company [g₁, g₂] := by
    have e : (asksTwice.map fun u => (u, Cause.other)).map (·.1) = asksTwice := by simp [List.map_map, Function.comp_def]
    refine ⟨?_, ?_, ?_⟩
    · simp only [List.mem_cons, List.not_mem_nil, or_false, forall_eq_or_imp, forall_eq]
      exact ⟨e.symm ▸ h1, h3⟩
    · simp only [List.mem_cons, List.not_mem_nil, or_false, forall_eq_or_imp, forall_eq]
      refine ⟨fun x hx => ?_, ?_⟩
      · obtain ⟨u, hu, rfl⟩ := List.mem_map.1 hx
        exact asksTwice_ok u hu
      · simp only [g₂, secondTold, List.mem_cons, List.not_mem_nil, or_false, forall_eq_or_imp, forall_eq]
        have k1 := botSays_ok (.chat (botSays (b!"a1") (b!"m2"))) (by simp)
        have k2 := botSays_ok (.chat (botSays (b!"a2") (b!"m3"))) (by simp)
        exact ⟨⟨k1.1, k1.2.2, by simp⟩, ⟨trivial, by decide, by simp⟩, ⟨yoChat_ok, by decide +kernel, by simp⟩,
          k2.1, k2.2.2, by simp⟩
    · intro g hg u i n hm
      simp only [List.mem_cons, List.not_mem_nil, or_false] at hg
      rcases hg with rfl | rfl
      · obtain ⟨u', -, hu'⟩ := List.mem_map.1 hm
        simp at hu'
      · simp only [g₂, secondTold, List.mem_cons, List.not_mem_nil, or_false, Prod.mk.injEq, Cause.program.injEq,
          reduceCtorEq, and_false, false_or, or_false] at hm
        rcases hm with ⟨rfl, rfl, rfl⟩ | ⟨rfl, rfl, rfl⟩
        · exact ⟨g₁, .say (b!"#c") (b!"yo") (some (b!"m2")), _, rfl, by rw [hs]; rfl, rfl, rfl, rfl, rfl, rfl⟩
        · exact ⟨g₁, .say (b!"#c") (b!"yo") (some (b!"m3")), _, rfl, by rw [hs]; rfl, rfl, rfl, rfl, rfl, rfl⟩
  refine ⟨g₁, g₂, hc, by rw [hs]; rfl, ?_, rfl⟩
  rw [C116_count _ hc g₂ (by simp)]
  have : ((secondTold.filter fun x => x.2 = .other).map (·.1)).countP Utterance.asks = 1 := by decide +kernel
  exact this

end Tmi.Props
