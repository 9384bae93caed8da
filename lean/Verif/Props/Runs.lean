import Verif.Lemmas.Runs
import Verif.Props.Retry

/-
C77: what the retry loop runs the parser on, and how often.
-/

set_option linter.unusedSectionVars false

namespace Chomp.Props

open Spec

section
variable {S B I : Type} [DataSource S I] [HonestSource S I] [Buffer B I] [LawfulBuffer B I]

/-! ### C77 -/

/-- Keeping a record changes nothing else. -/
theorem C77_recorded (chk : Bool) (p : Parser σ I T E) (s : Source S B) (w : σ) (l : List (Run I)) :
    forget (retry chk (recorded p) s (w, l)) = retry chk p s w :=
  Runs.forget_retry chk p s (w, l)

/-- Any parser, also one which is not made of the combinators of the library: every run is on a
beginning of the stream. Every run but the last was incomplete and not at the end of the input; the next
run sees at least as many items, and all it asked for if it is not at the end of the input. -/
theorem C77_runs {rem : S → List I} {errs : S → Nat} (hd : Delivers S rem errs) (chk : Bool)
    (p : Parser σ I T E) (s s' : Source S B) (h : Usable s) (ha : s.state.automaticFill = true)
    (hq : ∀ x y w n w', ahead rem s = x ++ y → p ⟨.default, x⟩ w = .ok (.incomplete n, w') →
      x.length + n ≤ usizeMax)
    (w w' : σ) (r : Except (StreamError I E) T) (log : List (Run I))
    (hr : retry chk (recorded p) s (w, []) = .ok ((r, s'), (w', log))) :
    (∀ a ∈ log, a.input.buf <+: ahead rem s ∧
      ∃ w1 r1 w2, p a.input w1 = .ok (r1, w2) ∧ a.asked = request r1) ∧
    ∀ l1 a b l2, log = l1 ++ a :: b :: l2 → a.input.mode = .default ∧
      ∃ n, a.asked = some n ∧ a.size ≤ b.size ∧ (b.input.mode = .default → a.size + n ≤ b.size) := by
  have := Runs.retry_runs hd chk hq (full := ahead rem s) (l := [])
    ⟨h, ha, rfl, fun l1 a b l2 he => by simp at he, nofun, fun l1 a he => by simp at he⟩ hr
  refine ⟨fun a hm => ?_, this.1⟩
  obtain ⟨⟨y, hy⟩, h2⟩ := this.2 a hm
  exact ⟨⟨y, hy.symm⟩, h2⟩

/-- If the parser always asks for something, there are at most two runs more than there are items,
however the data is cut and however many I/O errors there are. -/
theorem C77_count {rem : S → List I} {errs : S → Nat} (hd : Delivers S rem errs) (chk : Bool)
    (p : Parser σ I T E) (s s' : Source S B) (h : Usable s) (ha : s.state.automaticFill = true)
    (hq : ∀ x y w n w', ahead rem s = x ++ y → p ⟨.default, x⟩ w = .ok (.incomplete n, w') →
      1 ≤ n ∧ x.length + n ≤ usizeMax)
    (w w' : σ) (r : Except (StreamError I E) T) (log : List (Run I))
    (hr : retry chk (recorded p) s (w, []) = .ok ((r, s'), (w', log))) :
    log.length ≤ (ahead rem s).length + 2 := by
  obtain ⟨h1, h2⟩ := C77_runs hd chk p s s' h ha (fun x y w n w' h1 h2 => (hq x y w n w' h1 h2).2)
    w w' r log hr
  have h3 := Runs.Steps.size_ge (l := log) h2 fun a ha hm h0 => by
    obtain ⟨⟨y, hy⟩, w1, r1, w2, g1, g2⟩ := h1 a ha
    match r1, h0.symm.trans g2 with
    | .incomplete 0, _ =>
      have := hq a.input.buf y w1 0 w2 hy.symm (by rw [← hm]; exact g1)
      omega
  rcases List.eq_nil_or_concat log with rfl | ⟨l1, z, rfl⟩
  · exact Nat.zero_le _
  rcases List.eq_nil_or_concat l1 with rfl | ⟨l2, y, rfl⟩
  · simp
  have he : (l2.concat y).concat z = l2 ++ y :: z :: [] := by simp
  have h4 := h3 l2 y [z] he (h2 l2 y z [] he).1
  obtain ⟨⟨t, ht⟩, _⟩ := h1 y (by simp)
  have := congrArg List.length ht
  rw [List.length_append] at this
  simp only [List.length_concat]
  change l2.length ≤ y.input.buf.length at h4
  omega

/-- Any parser, also with automatic filling turned off: the source is read at most once for each item
which is taken from it, once for each I/O error, and once more to see its end. -/
theorem C77_reads {rem : S → List I} {errs : S → Nat} (hd : Delivers S rem errs) (chk : Bool)
    (p : Parser σ I T E) (s s' : Source (Counting S) B) (h : Usable s) (w w' : σ)
    (r : Except (StreamError I E) T) (hr : retry chk p s w = .ok ((r, s'), w')) :
    s'.source.reads + (rem s'.source.source).length + errs s'.source.source ≤
      s.source.reads + (rem s.source.source).length + errs s.source.source + 1 := by
  have := Runs.retry_budget (Runs.budget hd) chk h hr
  omega

/-- The same for a single call of `parse`. -/
theorem C77_reads_once {rem : S → List I} {errs : S → Nat} (hd : Delivers S rem errs) (chk : Bool)
    (p : Parser σ I T E) (s s' : Source (Counting S) B) (h : Usable s) (w w' : σ)
    (r : Except (StreamError I E) T) (hr : s.parse chk p w = .ok ((r, s'), w')) :
    s'.source.reads + (rem s'.source.source).length + errs s'.source.source ≤
      s.source.reads + (rem s.source.source).length + errs s.source.source + 1 := by
  have := (Runs.turn_budget (Runs.budget hd) chk h hr).1
  omega

end

/-! ### A concrete case -/

namespace RunsExample

/-- `1 1 1 9 5 6`, in three pieces, with I/O errors. -/
def inPieces : Source (Script Nat) (FixedSizeBuffer Nat) :=
  Source.withBuffer ⟨[.data 1 [1], .err ⟨1⟩, .data 1 [9], .data 5 [6]]⟩ ⟨List.replicate 8 none, 0, 0⟩

def five : Parser Unit Nat (List Nat) (Error Nat) := Parsers.take 5

/-- C77: `take(5)` is run on the first two items and asks for three more; the I/O error is no run; then
it is run on all six items. -/
example (chk : Bool) : ∃ s', retry chk (recorded five) inPieces ((), []) =
    .ok ((.ok [1, 1, 1, 9, 5], s'), ((), [⟨⟨.default, [1, 1]⟩, some 3⟩, ⟨⟨.default, [1, 1, 1, 9, 5, 6]⟩, none⟩])) ∧
    ahead Script.rem s' = [6] := by
  have h1 : ∃ s1, inPieces.parse chk (recorded five) ((), []) =
      .ok ((.error .retry, s1), ((), [⟨⟨.default, [1, 1]⟩, some 3⟩])) ∧
      ∃ s2, s1.parse chk (recorded five) ((), [⟨⟨.default, [1, 1]⟩, some 3⟩]) =
        .ok ((.error (.ioError ⟨1⟩), s2), ((), [⟨⟨.default, [1, 1]⟩, some 3⟩])) ∧
      ∃ s3, s2.parse chk (recorded five) ((), [⟨⟨.default, [1, 1]⟩, some 3⟩]) =
        .ok ((.ok [1, 1, 1, 9, 5], s3), ((), [⟨⟨.default, [1, 1]⟩, some 3⟩,
          ⟨⟨.default, [1, 1, 1, 9, 5, 6]⟩, none⟩])) ∧ ahead Script.rem s3 = [6] := by
    cases chk <;> exact ⟨_, Source.parse_of_fuel 5 rfl, _, Source.parse_of_fuel 5 rfl, _,
      Source.parse_of_fuel 5 rfl, rfl⟩
  obtain ⟨s1, h1, s2, h2, s3, h3, h4⟩ := h1
  refine ⟨s3, ?_, h4⟩
  rw [retry_eq, h1, Res.bind_ok]
  dsimp only [again]
  rw [retry_eq, h2, Res.bind_ok]
  dsimp only [again]
  rw [retry_eq, h3]
  rfl

/-- C77: its hypotheses hold for `take(5)` of any `Script`. -/
example (chk : Bool) (d : Script Nat) (hl : d.rem.length + 5 ≤ usizeMax)
    (s' : Source (Script Nat) (FixedSizeBuffer Nat)) (r : Except (StreamError Nat (Error Nat)) (List Nat))
    (log : List (Run Nat))
    (hr : retry chk (recorded five) (Source.withBuffer d ⟨List.replicate 8 none, 0, 0⟩) ((), []) =
      .ok ((r, s'), ((), log))) : log.length ≤ d.rem.length + 2 := by
  obtain ⟨h1, _⟩ := (C48_new (S := Script Nat) (B := FixedSizeBuffer Nat)).2.1 8 _ rfl
  refine C77_count Script.delivers chk five (Source.withBuffer d _) s' h1 rfl
    (fun x y w n w' hx hn => ?_) () () r log hr
  have e := congrArg List.length (show d.rem = x ++ y from hx)
  rw [List.length_append] at e
  unfold five at hn
  rw [Parsers.take_eq] at hn
  split at hn
  · cases hn
  · rename_i hlt
    cases hn
    dsimp only at hlt ⊢
    omega

/-- C77: `take(2)` of a source with two items one at a time and an I/O error between them, and nothing
else: three reads, and none to see the end. -/
example (chk : Bool) : ∃ s', retry chk (Parsers.take 2 : Parser Unit Nat (List Nat) (Error Nat))
    (Source.withBuffer (⟨⟨[.data 4 [], .err ⟨1⟩, .data 7 []]⟩, 0⟩ : Counting (Script Nat))
      (⟨List.replicate 8 none, 0, 0⟩ : FixedSizeBuffer Nat)) () = .ok ((.ok [4, 7], s'), ()) ∧
    s'.source.reads = 3 := by
  have h1 : ∃ s1, (Source.withBuffer (⟨⟨[.data 4 [], .err ⟨1⟩, .data 7 []]⟩, 0⟩ : Counting (Script Nat))
      (⟨List.replicate 8 none, 0, 0⟩ : FixedSizeBuffer Nat)).parse chk
      (Parsers.take 2 : Parser Unit Nat (List Nat) (Error Nat)) () = .ok ((.error .retry, s1), ()) ∧
      ∃ s2, s1.parse chk (Parsers.take 2 : Parser Unit Nat (List Nat) (Error Nat)) () =
        .ok ((.error (.ioError ⟨1⟩), s2), ()) ∧
      ∃ s3, s2.parse chk (Parsers.take 2 : Parser Unit Nat (List Nat) (Error Nat)) () =
        .ok ((.ok [4, 7], s3), ()) ∧ s3.source.reads = 3 := by
    cases chk <;> exact ⟨_, Source.parse_of_fuel 5 rfl, _, Source.parse_of_fuel 5 rfl, _,
      Source.parse_of_fuel 5 rfl, rfl⟩
  obtain ⟨s1, h1, s2, h2, s3, h3, h4⟩ := h1
  refine ⟨s3, ?_, h4⟩
  rw [retry_eq, h1, Res.bind_ok]
  dsimp only [again]
  rw [retry_eq, h2, Res.bind_ok]
  dsimp only [again]
  rw [retry_eq, h3]
  rfl

end RunsExample

end Chomp.Props
