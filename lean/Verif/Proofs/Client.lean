/-
Lemmas about the client model.
-/
import Verif.Spec.Client
import Verif.Proofs.Msg

namespace Tmi.Proofs
open Tmi.Model Tmi.Spec

/-! ### The monad -/

theorem act_bind {α β : Type} (x : Act α) (f : α → Act β) (w : World) :
    (x >>= f) w = match x w with
      | (.ok a, w') => f a w'
      | (.error e, w') => (.error e, w') := rfl

theorem act_pure {α : Type} (a : α) (w : World) : (pure a : Act α) w = (.ok a, w) := rfl

theorem act_bind_ok {α β : Type} {x : Act α} {f : α → Act β} {w w' : World} {a : α}
    (h : x w = (.ok a, w')) : (x >>= f) w = f a w' := by rw [act_bind, h]

theorem act_bind_error {α β : Type} {x : Act α} {f : α → Act β} {w w' : World} {e : Stop}
    (h : x w = (.error e, w')) : (x >>= f) w = (.error e, w') := by rw [act_bind, h]

/-! ### Effects -/

theorem written_append (a b : List Effect) : written (a ++ b) = written a ++ written b := by
  induction a with
  | nil => rfl
  | cons e a ih => cases e <;> simp [written, ih]

theorem sleeps_append (a b : List Effect) : sleeps (a ++ b) = sleeps a ++ sleeps b := by
  induction a with
  | nil => rfl
  | cons e a ih => cases e <;> simp [sleeps, ih]

theorem taken_append (a b : List Effect) : taken (a ++ b) = taken a ++ taken b := by
  induction a with
  | nil => rfl
  | cons e a ih => cases e <;> simp [taken, ih]

theorem opens_append (a b : List Effect) : opens (a ++ b) = opens a + opens b := by
  simp [opens]

theorem opens_cons (e : Effect) (b : List Effect) :
    opens (e :: b) = (if e = .open_ then 1 else 0) + opens b := by
  unfold opens
  by_cases h : e = .open_
  · subst h; simp; omega
  · rw [List.filter_cons_of_neg (by simpa using h), if_neg h]; omega

/-- The effects are only writes. -/
def OnlyWrites (ev : List Effect) : Prop := ∀ e ∈ ev, ∃ bs, e = .wrote bs

theorem OnlyWrites.sleeps {ev : List Effect} (h : OnlyWrites ev) : sleeps ev = [] := by
  induction ev with
  | nil => rfl
  | cons e ev ih =>
    obtain ⟨bs, rfl⟩ := h e (by simp)
    exact ih fun x hx => h x (List.mem_cons_of_mem _ hx)

theorem OnlyWrites.taken {ev : List Effect} (h : OnlyWrites ev) : taken ev = [] := by
  induction ev with
  | nil => rfl
  | cons e ev ih =>
    obtain ⟨bs, rfl⟩ := h e (by simp)
    exact ih fun x hx => h x (List.mem_cons_of_mem _ hx)

theorem OnlyWrites.opens {ev : List Effect} (h : OnlyWrites ev) : opens ev = 0 := by
  induction ev with
  | nil => rfl
  | cons e ev ih =>
    obtain ⟨bs, rfl⟩ := h e (by simp)
    rw [opens_cons, ih fun x hx => h x (List.mem_cons_of_mem _ hx)]
    simp

/-! ### Writing -/

/-- What `next` does. -/
theorem next_cases (w : World) :
    (w.script = [] ∧ next w = (.error .dropped, w)) ∨
    (∃ n rest, w.script = .elapsed n :: rest ∧
      next w = (.error (.elapsed n), { w with script := rest })) ∨
    (∃ a rest, w.script = a :: rest ∧ (∀ n, a ≠ .elapsed n) ∧
      next w = (.ok a, { w with script := rest })) := by
  unfold next
  split
  · exact .inl ⟨‹_›, rfl⟩
  · exact .inr (.inl ⟨_, _, ‹_›, rfl⟩)
  · rename_i a rest hne h
    exact .inr (.inr ⟨a, rest, h, hne, rfl⟩)

/-- What a write may do, whatever happens. -/
structure WriteEffect (data : Bytes) (w : World) (r : Except Stop (Except IoError Unit)) (w' : World) :
    Prop where
  log : ∃ ev, w'.log = w.log ++ ev ∧ OnlyWrites ev ∧ written ev <+: data ∧
    (r = .ok (.ok ()) → written ev = data)
  client : w'.client = w.client
  script : w'.script <:+ w.script
  noPanic : ∀ f, r ≠ .error (.panic f)
  full : wire w w' = data → r = .ok (.ok ())

theorem wire_nothing {w w' : World} (h : w'.log = w.log) : wire w w' = [] := by
  unfold wire; rw [h, List.drop_length]; rfl

theorem writeLoop_effect : ∀ (k : Nat) (data : Bytes) (w : World), data.length ≤ k →
    WriteEffect data w (writeLoop k data w).1 (writeLoop k data w).2
  | 0, data, w, h => by
    have : data = [] := by simpa using h
    subst this
    exact ⟨⟨[], by simp [writeLoop, act_pure], by simp [OnlyWrites], by simp [written], by simp [written]⟩,
      rfl, List.suffix_refl _, by simp [writeLoop, act_pure], fun _ => rfl⟩
  | k + 1, data, w, h => by
    rw [writeLoop]
    by_cases hd : data = []
    · rw [if_pos hd]
      subst hd
      exact ⟨⟨[], by simp [act_pure], by simp [OnlyWrites], by simp [written], by simp [written]⟩,
        rfl, List.suffix_refl _, by simp [act_pure], fun _ => rfl⟩
    rw [if_neg hd]
    rcases next_cases w with ⟨hs, hn⟩ | ⟨n, rest, hs, hn⟩ | ⟨a, rest, hs, hne, hn⟩
    · rw [act_bind_error hn]
      exact ⟨⟨[], by simp, by simp [OnlyWrites], by simp [written], by simp⟩, rfl,
        List.suffix_refl _, by simp, fun h => absurd (h.symm.trans (wire_nothing rfl)) hd⟩
    · rw [act_bind_error hn]
      exact ⟨⟨[], by simp, by simp [OnlyWrites], by simp [written], by simp⟩, rfl,
        by rw [hs]; exact List.suffix_cons _ _, by simp, fun h => absurd (h.symm.trans (wire_nothing rfl)) hd⟩
    · rw [act_bind_ok hn]
      have other : ∀ r : Except Stop (Except IoError Unit), r ≠ .ok (.ok ()) →
          (∀ f, r ≠ .error (.panic f)) → WriteEffect data w r { w with script := rest } := by
        intro r hr hp
        exact ⟨⟨[], by simp, by simp [OnlyWrites], by simp [written], fun h => absurd h hr⟩, rfl,
          by rw [hs]; exact List.suffix_cons _ _, hp, fun h => absurd (h.symm.trans (wire_nothing rfl)) hd⟩
      cases a with
      | accept n =>
        simp only []
        by_cases h0 : n = 0
        · rw [if_pos h0]
          exact other _ (by simp [act_pure]) (by simp [act_pure])
        · rw [if_neg h0]
          have hpos : data.length ≠ 0 := by simpa using hd
          have ih := writeLoop_effect k (data.drop n)
            { client := w.client, log := w.log ++ [.wrote (data.take n)], script := rest }
            (by rw [List.length_drop]; omega)
          rw [act_bind_ok (x := emit (.wrote (data.take n)))
            (w' := { client := w.client, log := w.log ++ [.wrote (data.take n)], script := rest }) rfl]
          obtain ⟨⟨ev, h1, h2, h3, h4⟩, h5, h6, h7, h8⟩ := ih
          refine ⟨⟨.wrote (data.take n) :: ev, ?_, ?_, ?_, ?_⟩, h5, ?_, h7, ?_⟩
          · rw [h1]; simp
          · intro e he
            rcases List.mem_cons.1 he with rfl | he
            · exact ⟨_, rfl⟩
            · exact h2 e he
          · obtain ⟨t, ht⟩ := h3
            exact ⟨t, by rw [written, List.append_assoc, ht, List.take_append_drop]⟩
          · intro hr
            rw [written, h4 hr, List.take_append_drop]
          · rw [hs]; exact h6.trans (List.suffix_cons _ _)
          · intro hw
            refine h8 ?_
            unfold wire at hw ⊢
            rw [h1] at hw ⊢
            simp only [List.append_assoc, List.drop_left, List.singleton_append, written] at hw
            rw [List.drop_left]
            exact List.append_cancel_left (hw.trans (List.take_append_drop n data).symm)
      | writeFailed e => exact other _ (by simp [act_pure]) (by simp [act_pure])
      | elapsed n => exact absurd rfl (hne n)
      | _ => exact other _ (by simp [stop]) (by simp [stop])

theorem writeAll_effect (data : Bytes) (w : World) :
    WriteEffect data w (writeAll data w).1 (writeAll data w).2 :=
  writeLoop_effect _ _ _ (Nat.le_refl _)

/-- A network that accepts everything lets the write succeed. -/
theorem writeLoop_accepts {data : Bytes} {script rest : List Answer} (h : Accepts data script rest) :
    ∀ (k : Nat) (w : World), data.length ≤ k → w.script = script →
      ∃ w', writeLoop k data w = (.ok (.ok ()), w') ∧ w'.script = rest := by
  induction h with
  | done rest =>
    intro k w _ hs
    cases k with
    | zero => exact ⟨w, rfl, hs⟩
    | succ k => exact ⟨w, by rw [writeLoop, if_pos rfl]; rfl, hs⟩
  | @more data n script rest hd hn h ih =>
    intro k w hk hs
    have hpos : data.length ≠ 0 := by simpa using hd
    cases k with
    | zero => omega
    | succ k =>
      rw [writeLoop, if_neg hd]
      have hnx : next w = (.ok (.accept n), { w with script := script }) := by
        unfold next; rw [hs]
      rw [act_bind_ok hnx]
      simp only [if_neg hn]
      exact ih k _ (by rw [List.length_drop]; omega) rfl

theorem writeAll_accepts {data : Bytes} {rest : List Answer} (w : World)
    (h : Accepts data w.script rest) :
    ∃ w', writeAll data w = (.ok (.ok ()), w') ∧ w'.script = rest :=
  writeLoop_accepts h _ w (Nat.le_refl _) rfl

/-- and only such a network does. -/
theorem writeLoop_ok : ∀ (k : Nat) (data : Bytes) (w w' : World), data.length ≤ k →
    writeLoop k data w = (.ok (.ok ()), w') → Accepts data w.script w'.script
  | 0, data, w, w', hk, h => by
    have : data = [] := by simpa using hk
    subst this
    simp [writeLoop, act_pure] at h
    subst h; exact .done _
  | k + 1, data, w, w', hk, h => by
    rw [writeLoop] at h
    by_cases hd : data = []
    · rw [if_pos hd] at h
      subst hd
      simp [act_pure] at h
      subst h; exact .done _
    rw [if_neg hd] at h
    rcases next_cases w with ⟨hs, hn⟩ | ⟨n, rest, hs, hn⟩ | ⟨a, rest, hs, hne, hn⟩
    · rw [act_bind_error hn] at h; simp at h
    · rw [act_bind_error hn] at h; simp at h
    · rw [act_bind_ok hn] at h
      cases a with
      | accept n =>
        simp only [] at h
        by_cases h0 : n = 0
        · rw [if_pos h0] at h; simp [act_pure] at h
        · rw [if_neg h0] at h
          have hpos : data.length ≠ 0 := by simpa using hd
          rw [act_bind_ok (x := emit (.wrote (data.take n)))
            (w' := { client := w.client, log := w.log ++ [.wrote (data.take n)], script := rest })
            rfl] at h
          have := writeLoop_ok k (data.drop n) _ w' (by rw [List.length_drop]; omega) h
          rw [hs]
          exact .more hd h0 this
      | writeFailed e => simp [act_pure] at h
      | elapsed n => exact absurd rfl (hne n)
      | _ => simp [stop] at h

theorem writeAll_ok {data : Bytes} {w w' : World} (h : writeAll data w = (.ok (.ok ()), w')) :
    Accepts data w.script w'.script := writeLoop_ok _ _ _ _ (Nat.le_refl _) h

theorem writeLoop_rejects {data : Bytes} {script rest : List Answer} {e : IoError}
    (h : Rejects data script e rest) :
    ∀ (k : Nat) (w : World), data.length ≤ k → w.script = script →
      ∃ w', writeLoop k data w = (.ok (.error e), w') ∧ w'.script = rest := by
  induction h with
  | @now data e rest hd =>
    intro k w hk hs
    have hpos : data.length ≠ 0 := by simpa using hd
    cases k with
    | zero => omega
    | succ k =>
      rw [writeLoop, if_neg hd]
      have hnx : next w = (.ok (.writeFailed e), { w with script := rest }) := by
        unfold next; rw [hs]
      rw [act_bind_ok hnx]
      exact ⟨_, rfl, rfl⟩
  | @zero data rest hd =>
    intro k w hk hs
    have hpos : data.length ≠ 0 := by simpa using hd
    cases k with
    | zero => omega
    | succ k =>
      rw [writeLoop, if_neg hd]
      have hnx : next w = (.ok (.accept 0), { w with script := rest }) := by
        unfold next; rw [hs]
      rw [act_bind_ok hnx]
      exact ⟨_, rfl, rfl⟩
  | @more data n script rest e hd hn h ih =>
    intro k w hk hs
    have hpos : data.length ≠ 0 := by simpa using hd
    cases k with
    | zero => omega
    | succ k =>
      rw [writeLoop, if_neg hd]
      have hnx : next w = (.ok (.accept n), { w with script := script }) := by
        unfold next; rw [hs]
      rw [act_bind_ok hnx]
      simp only [if_neg hn]
      exact ih k _ (by rw [List.length_drop]; omega) rfl

theorem writeAll_rejects {data : Bytes} {rest : List Answer} {e : IoError} (w : World)
    (h : Rejects data w.script e rest) :
    ∃ w', writeAll data w = (.ok (.error e), w') ∧ w'.script = rest :=
  writeLoop_rejects h _ w (Nat.le_refl _) rfl

/-! ### Sending -/

theorem endsWith_iff (suf s : Bytes) : endsWith suf s = true ↔ suf <:+ s := by
  unfold endsWith; exact List.isSuffixOf_iff_suffix

theorem crlf_suffix (a : Bytes) : endsWith [CR, LF] (a ++ [CR, LF]) = true :=
  (endsWith_iff _ _).2 (List.suffix_append _ _)

/-- What a send may do, whatever happens: it hands a prefix of `data` to the socket. -/
structure SendEffect (data : Bytes) (w : World) (r : Except Stop (Except SendError Unit)) (w' : World) :
    Prop where
  log : ∃ ev, w'.log = w.log ++ ev ∧ OnlyWrites ev ∧ written ev <+: data ∧
    (r = .ok (.ok ()) → written ev = data)
  config : w'.client.config = w.client.config
  closed : w'.client.closed = w.client.closed
  script : w'.script <:+ w.script
  noPanic : ∀ f, r ≠ .error (.panic f)
  error : ∀ e, r = .ok (.error e) → ∃ e', e = .io e'
  full : wire w w' = data → r = .ok (.ok ())

theorem sendRaw_effect {s : Bytes} (hs : endsWith [CR, LF] s = true) (w : World) :
    SendEffect s w (sendRaw s w).1 (sendRaw s w).2 ∧ (sendRaw s w).2.client = w.client := by
  have h := writeAll_effect s w
  unfold sendRaw rawMessage
  rw [if_pos hs]
  simp only []
  rw [act_bind]
  cases hw : writeAll s w with
  | mk r w' =>
    rw [hw] at h
    obtain ⟨⟨ev, h1, h2, h3, h4⟩, h5, h6, h7, h8⟩ := h
    simp only at h1 h4 h5 h6 h7 h8
    cases r with
    | error e =>
      refine ⟨⟨⟨ev, h1, h2, h3, by simp⟩, by simp [h5], by simp [h5], h6, ?_, by simp,
        fun h => by simpa using h8 h⟩, h5⟩
      intro f hf
      simp only [Except.error.injEq] at hf
      exact h7 f (by rw [hf])
    | ok r =>
      cases r with
      | error e =>
        exact ⟨⟨⟨ev, h1, h2, h3, by simp [act_pure]⟩, by simp [act_pure, h5], by simp [act_pure, h5], h6,
          by simp [act_pure], by simp [act_pure], fun h => by simpa using h8 h⟩, by simp [act_pure, h5]⟩
      | ok _ =>
        exact ⟨⟨⟨ev, h1, h2, h3, fun _ => h4 rfl⟩, by simp [act_pure, h5], by simp [act_pure, h5], h6,
          by simp [act_pure], by simp [act_pure], fun _ => rfl⟩, by simp [act_pure, h5]⟩

theorem sendRaw_invalid {s : Bytes} (hs : ¬ endsWith [CR, LF] s = true) (w : World) :
    sendRaw s w = (.ok (.error .invalidMessage), w) := by
  unfold sendRaw rawMessage
  rw [if_neg hs]
  rfl

theorem withScratch_effect {data : Bytes} {w : World}
    (hs : endsWith [CR, LF] (w.client.scratch ++ data) = true) :
    SendEffect (w.client.scratch ++ data) w (withScratch (fun f => sendRaw (f ++ data)) w).1
        (withScratch (fun f => sendRaw (f ++ data)) w).2 ∧
      (withScratch (fun f => sendRaw (f ++ data)) w).2.client.scratch = [] := by
  unfold withScratch
  rw [act_bind_ok (x := takeScratch) (a := w.client.scratch)
    (w' := { w with client := { w.client with scratch := [] } }) rfl]
  obtain ⟨h, hc⟩ := sendRaw_effect hs { w with client := { w.client with scratch := [] } }
  simp only []
  rw [act_bind]
  cases hw : sendRaw (w.client.scratch ++ data) { w with client := { w.client with scratch := [] } } with
  | mk r w' =>
    rw [hw] at h hc
    obtain ⟨h1, h2, h3, h4, h5, h6, h7⟩ := h
    simp only at h1 h2 h3 h4 h5 h6 h7 hc
    cases r with
    | error e => exact ⟨⟨h1, h2, h3, h4, h5, h6, h7⟩, by simp [hc]⟩
    | ok r => exact ⟨⟨h1, h2, h3, h4, h5, h6, h7⟩, rfl⟩

theorem joinChannel_effect {channel : Bytes} {w : World} :
    SendEffect (w.client.scratch ++ (b!"JOIN " ++ displayChannel channel ++ [CR, LF])) w
        (joinChannel channel w).1 (joinChannel channel w).2 ∧
      (joinChannel channel w).2.client.scratch = [] := by
  unfold joinChannel
  rw [act_bind_ok (x := takeScratch) (a := w.client.scratch)
    (w' := { w with client := { w.client with scratch := [] } }) rfl]
  have hs : endsWith [CR, LF] (w.client.scratch ++ (b!"JOIN " ++ displayChannel channel ++ [CR, LF]))
      = true := by
    rw [← List.append_assoc]; exact crlf_suffix _
  obtain ⟨h, hc⟩ := sendRaw_effect hs { w with client := { w.client with scratch := [] } }
  generalize w.client.scratch ++ (b!"JOIN " ++ displayChannel channel ++ [CR, LF]) = data at *
  rw [act_bind]
  cases hw : sendRaw data { w with client := { w.client with scratch := [] } } with
  | mk r w' =>
    rw [hw] at h hc
    obtain ⟨h1, h2, h3, h4, h5, h6, h7⟩ := h
    simp only at h1 h2 h3 h4 h5 h6 h7 hc
    cases r with
    | error e => exact ⟨⟨h1, h2, h3, h4, h5, h6, h7⟩, by simp [hc]⟩
    | ok r =>
      cases r with
      | error e => exact ⟨⟨h1, h2, h3, h4, h5, h6, h7⟩, by simp [act_pure, hc]⟩
      | ok _ => exact ⟨⟨h1, h2, h3, h4, h5, h6, h7⟩, rfl⟩

theorem displayChannel_eq (c : Bytes) : displayChannel c = channelName c := by
  unfold displayChannel channelName startsWith
  cases c with
  | nil => rfl
  | cons x t =>
    simp only [List.head?_cons, Option.some.injEq]
    by_cases h : x = HASH
    · rw [if_pos h]; simp [h]
    · rw [if_neg h, if_pos]; simpa using h

theorem joinAllText_eq (cs : List Bytes) :
    joinAllText cs = b!"JOIN " ++ joinWith COMMA (cs.map channelName) ++ [CR, LF] := by
  unfold joinAllText
  congr 2
  have : cs.map displayChannel = cs.map channelName := by
    apply List.map_congr_left; intro c _; exact displayChannel_eq c
  rw [this]
  cases cs.map channelName with
  | nil => rfl
  | cons a l =>
    simp only []
    induction l generalizing a with
    | nil => simp [joinWith]
    | cons b l ih =>
      rw [List.flatMap_cons, joinWith]
      · rw [← ih b]; simp
      · simp

theorem privmsgText_eq (ch text : Bytes) (r n : Option Bytes) :
    privmsgText ch text r n = commandBytes (.privmsg ch text r n) := by
  cases r <;> cases n <;>
    simp [privmsgText, commandBytes, commandLine, joinIter, JoinCell.fmt, joinLoop, displayTag]

/-- Every sending method other than `send_raw` sends the buffer followed by its line. -/
theorem send_effect (c : Cmd) (hc : ∀ s, c ≠ .raw s) (w : World) :
    SendEffect (w.client.scratch ++ commandBytes c) w (c.send w).1 (c.send w).2 ∧
      (c.send w).2.client.scratch = [] := by
  have crlf : ∀ x : Bytes, endsWith [CR, LF] (w.client.scratch ++ (x ++ [CR, LF])) = true := by
    intro x; rw [← List.append_assoc]; exact crlf_suffix _
  cases c with
  | raw s => exact absurd rfl (hc s)
  | privmsg ch text r n =>
    have : commandBytes (.privmsg ch text r n) = commandLine (.privmsg ch text r n) ++ [CR, LF] := rfl
    rw [← privmsgText_eq] at this
    rw [← privmsgText_eq]
    exact withScratch_effect (data := privmsgText ch text r n) (by rw [this]; exact crlf _)
  | ping n => exact withScratch_effect (data := b!"PING :" ++ n ++ [CR, LF]) (crlf _)
  | pong n =>
    cases n with
    | none => exact withScratch_effect (data := b!"PONG" ++ [CR, LF]) (crlf _)
    | some n => exact withScratch_effect (data := b!"PONG :" ++ n ++ [CR, LF]) (crlf _)
  | join ch =>
    have := joinChannel_effect (channel := ch) (w := w)
    rw [displayChannel_eq] at this
    exact this
  | joinAll cs =>
    have : commandBytes (.joinAll cs) = joinAllText cs := by rw [joinAllText_eq]; rfl
    rw [this]
    exact withScratch_effect (data := joinAllText cs) (by rw [joinAllText_eq]; exact crlf _)

end Tmi.Proofs
