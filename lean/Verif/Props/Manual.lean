import Verif.Lemmas.Manual
import Verif.Props.Retry

/-
C78: filling a `Source` by hand.
-/

set_option linter.unusedSectionVars false

namespace Chomp.Props

open Spec

section
variable {S B I : Type} [DataSource S I] [Buffer B I]

/-! ### C78 -/

/-- Any parser, source and buffer, lawful or not: a loop which calls `fill` before each `parse` does
exactly what the retry loop does with automatic filling on a source which is INCOMPLETE, whether
automatic filling is on or off, and leaves that setting alone. -/
theorem C78_fill_first (chk : Bool) (p : Parser σ I T E) (s : Source S B) (w : σ) :
    fillFirst chk p s w = thenAutofill s.state.automaticFill (retry chk p (withFlags true true s) w) :=
  Manual.fillFirst_eq chk p s w

/-- With automatic filling off: `parse`, and the same loop if that was not enough, do what the retry
loop does with automatic filling on a source which is not INCOMPLETE. Automatic filling stays off. -/
theorem C78_parse_first (chk : Bool) (p : Parser σ I T E) (s : Source S B) (w : σ)
    (ha : s.state.automaticFill = false) :
    butFlags (parseFirst chk p s w) = butFlags (retry chk p (withFlags false true s) w) ∧
    ∀ r s' w', parseFirst chk p s w = .ok ((r, s'), w') → s'.state.automaticFill = false :=
  ⟨Manual.parseFirst_eq chk p s w ha, fun _ _ _ h => Manual.parseFirst_off chk p ha h⟩

end

section
variable {S B I : Type} [DataSource S I] [HonestSource S I] [Buffer B I] [LawfulBuffer B I]

/-- So both give what the parser gives on all of the data at once, however it is cut. -/
theorem C78_fill_first_agrees {rem : S → List I} {errs : S → Nat} (hd : Delivers S rem errs) (chk : Bool)
    {p : Parser Unit I T E} (hp : Built streaming p) (s : Source S B)
    (h : Ready rem (withFlags true true s)) (hne : ahead rem s ≠ [])
    (hfit : Fits p s.buffer (ahead rem s)) :
    ∃ y, Agrees rem (withFlags true true s) (p ⟨.endOfInput, ahead rem s⟩ ()) y ∧
      fillFirst chk p s () = thenAutofill s.state.automaticFill y :=
  ⟨_, C51_retry hd chk hp (withFlags true true s) h hne hfit, C78_fill_first chk p s ()⟩

theorem C78_parse_first_agrees {rem : S → List I} {errs : S → Nat} (hd : Delivers S rem errs) (chk : Bool)
    {p : Parser Unit I T E} (hp : Built streaming p) (s : Source S B) (ha : s.state.automaticFill = false)
    (h : Ready rem (withFlags false true s)) (hne : ahead rem s ≠ [])
    (hfit : Fits p s.buffer (ahead rem s)) :
    ∃ y, Agrees rem (withFlags false true s) (p ⟨.endOfInput, ahead rem s⟩ ()) y ∧
      butFlags (parseFirst chk p s ()) = butFlags y :=
  ⟨_, C51_retry hd chk hp (withFlags false true s) h hne hfit, (C78_parse_first chk p s () ha).1⟩

/-- A new source, with automatic filling turned off, is like this. -/
theorem C78_new (rem : S → List I) (s : S) (b : B) (hb : LawfulBuffer.Inv b) :
    Ready rem (withFlags false true ((Source.withBuffer s b).setAutofill false)) ∧
    ahead rem ((Source.withBuffer s b).setAutofill false) = LawfulBuffer.view b ++ rem s :=
  ⟨⟨hb, rfl, nofun, nofun⟩, rfl⟩

/-- Any sequence of parsers on a source which is filled by hand, until the data is used up: the answers
of a `SliceStream` of all the data. -/
theorem C78_calls {rem : S → List I} {errs : S → Nat} (hd : Delivers S rem errs) (chk chk' : Bool)
    (ps : List (Parser Unit I T E)) (hps : ∀ p ∈ ps, Built streaming p) (l l' : SliceStream I)
    (s : Source S B) (hl : ValidSlice l) (ha : s.state.automaticFill = false)
    (h : Ready rem (withFlags false true s)) (hsame : unread l = ahead rem s)
    (hfit : ∀ p ∈ ps, ∀ x y, unread l = x ++ y → Fits p s.buffer y)
    (rs : List (Except (StreamError I E) T)) (hr : sliceCalls chk ps l = .ok (rs, l'))
    (hmore : .error .endOfInput ∉ rs) :
    ∃ rs' s', manualCalls chk' ps s = .ok (rs', s') ∧ SameAnswers rs rs' ∧
      unread l' = ahead rem s' ∧ s'.state.automaticFill = false ∧ Ready rem (withFlags false true s') := by
  induction ps generalizing l s rs with
  | nil => cases hr; exact ⟨[], s, rfl, .nil, hsame, ha, h⟩
  | cons p ps ih =>
    unfold sliceCalls at hr
    match hx : l.parse chk p () with
    | .ok ((r, l1), ()) =>
      rw [hx] at hr
      simp only [Res.bind_ok] at hr
      match hy : sliceCalls chk ps l1 with
      | .ok (rs1, l2) =>
        rw [hy] at hr
        cases hr
        have hne : unread l ≠ [] := by
          intro h0
          rw [C42_end_of_input chk p l hl h0] at hx
          cases hx
          exact hmore (List.mem_cons_self ..)
        obtain ⟨r', s1, g1, g2, g3, g4, g5⟩ := C52_call hd chk chk' (hps p (List.mem_cons_self ..)) l
          (withFlags false true s) hl h hsame hne (hfit p (List.mem_cons_self ..) [] _ rfl) r l1 hx
        obtain ⟨j1, j2⟩ := C78_parse_first chk' p s () ha
        rw [g1] at j1
        match hz : parseFirst chk' p s () with
        | .panic => rw [hz] at j1; cases j1
        | .ub => rw [hz] at j1; cases j1
        | .div => rw [hz] at j1; cases j1
        | .ok ((r2, s2), w2) =>
          rw [hz] at j1
          injection j1 with j1
          injection j1 with j1 _
          injection j1 with jr js
          subst jr
          have j3 : s2.state.automaticFill = false := j2 _ _ _ hz
          have b1 : s2.buffer = s1.buffer := by injection js
          have b2 : s2.source = s1.source := by injection js
          have b3 : s2.state.endOfInput = s1.state.endOfInput := congrArg (·.state.endOfInput) js
          have hr2 : Ready rem (withFlags false true s2) := by
            refine ⟨?_, rfl, fun he => ?_, nofun⟩
            · show LawfulBuffer.Inv s2.buffer
              rw [b1]; exact g5.1.usable
            · show rem s2.source = []
              rw [b2]; exact g5.1.endOfInput (by rw [← b3]; exact he)
          have ha2 : ahead rem s2 = ahead rem s1 := by
            unfold ahead held; rw [b1, b2]
          obtain ⟨x0, hx0⟩ := slice_forward chk p (hps p (List.mem_cons_self ..)).anything l l1 hl r hx
          obtain ⟨rs', s', k1, k2, k3, k4⟩ := ih (fun q hq => hps q (List.mem_cons_of_mem _ hq)) l1 s2 g3
            j3 hr2 (by rw [ha2]; exact g4) (fun q hq x y hxy => by
              rw [b1]
              exact Continues.fits g5
                (hfit q (List.mem_cons_of_mem _ hq) (x0 ++ x) y (by rw [hx0, hxy, List.append_assoc])))
            rs1 hy (fun hm => hmore (List.mem_cons_of_mem _ hm))
          refine ⟨r2 :: rs', s', ?_, .cons g2 k2, k3, k4⟩
          unfold manualCalls
          rw [hz]
          simp only [Res.bind_ok]
          rw [k1]
          rfl
      | .panic => rw [hy] at hr; cases hr
      | .div => rw [hy] at hr; cases hr
      | .ub => rw [hy] at hr; cases hr
    | .panic => rw [hx] at hr; cases hr
    | .div => rw [hx] at hr; cases hr
    | .ub => rw [hx] at hr; cases hr

end

/-! ### A concrete case -/

namespace ManualExample

open Ex

/-- C78: two parsers on a new source, filled by hand, with the data in pieces and I/O errors between
them. -/
example (chk chk' : Bool) (extra : Nat → Nat) : ∃ rs' s',
    manualCalls chk' [word, word] ((Source.withBuffer pieces
      (GrowingBuffer.withLimit extra 0 : GrowingBuffer Nat)).setAutofill false) = .ok (rs', s') ∧
    SameAnswers [.ok [5, 1, 1, 1], .error (.parseError [6] .unexpected)] rs' := by
  have hr := C78_new Script.rem pieces (GrowingBuffer.withLimit extra 0 : GrowingBuffer Nat)
    (GrowingBuffer.withLimit_inv _ _)
  have hl : ∃ l', sliceCalls chk [word, word] (SliceStream.new [1, 1, 1, 9, 5, 6]) =
      .ok ([.ok [5, 1, 1, 1], .error (.parseError [6] .unexpected)], l') := by
    cases chk <;> exact ⟨_, rfl⟩
  obtain ⟨l', hl⟩ := hl
  obtain ⟨rs', s', h1, h2, _⟩ := C78_calls Script.delivers chk chk' [word, word]
    (fun p hp => by
      have : p = word := by simpa using hp
      rw [this]; exact word_built.streamed rfl)
    (SliceStream.new [1, 1, 1, 9, 5, 6]) l' _ ⟨Nat.zero_le _, by decide⟩ rfl hr.1 hr.2.symm
    (fun p hp x y hxy => by
      have : p = word := by simpa using hp
      have hlen := congrArg List.length hxy
      have e : (unread (SliceStream.new [1, 1, 1, 9, 5, 6])).length = 6 := rfl
      rw [e, List.length_append] at hlen
      rw [this]
      have a : y.length + max 1 0 ≤ 2 ^ 62 := by omega
      exact C51_fits word_built _ _ ⟨rfl, a⟩ (Nat.le_trans a (by decide)))
    _ hl (by simp)
  exact ⟨rs', s', h1, h2⟩

/-- C78: `take(2)` on a new source which is filled by hand: the first run is on nothing. -/
example (chk : Bool) : ∃ s1 s2 s3 : Source (Script Nat) (FixedSizeBuffer Nat),
    ((Source.withBuffer (⟨[.data 4 [7, 8]]⟩ : Script Nat)
      (⟨List.replicate 8 none, 0, 0⟩ : FixedSizeBuffer Nat)).setAutofill false).parse chk
      (Parsers.take 2 : Parser Unit Nat (List Nat) (Error Nat)) () = .ok ((.error .retry, s1), ()) ∧
    s1.fill chk = .ok (.ok 3, s2) ∧
    s2.parse chk (Parsers.take 2 : Parser Unit Nat (List Nat) (Error Nat)) () =
      .ok ((.ok [4, 7], s3), ()) ∧ ahead Script.rem s3 = [8] := by
  cases chk <;> exact ⟨_, _, _, Source.parse_of_fuel 5 rfl, Source.fill_of_fuel (n := 5) rfl,
    Source.parse_of_fuel 5 rfl, rfl⟩

end ManualExample

end Chomp.Props
