import Verif.Lemmas.Dialogue
import Verif.Props.Retry

/-
C97: a source reads no more than is needed, so that it can be used to talk to somebody who waits for
an answer.
-/

set_option linter.unusedSectionVars false

namespace Chomp.Props

open Spec

section
variable {S B I : Type} [DataSource S I] [HonestSource S I] [Buffer B I] [LawfulBuffer B I]

/-! ### C97 -/

/-- A single call of `parse` with any parser: the data source is read only while there are fewer items
than the last `Incomplete` asked for, and only until there is one item if none did. -/
theorem C97_parse {rem : S → List I} {errs : S → Nat} (hd : Delivers S rem errs) (chk : Bool)
    (p : Parser σ I T E) (s s' : Source (Watched S) B) (h : Usable s) (w w' : σ)
    (r : Except (StreamError I E) T) (hr : s.parse chk p w = .ok ((r, s'), w')) :
    ReadsBelow (max 1 s.request) s s' :=
  (Dialogue.turn hd chk h (fun _ => Nat.le_refl _) hr).1

/-- The same for `fill`. -/
theorem C97_fill (chk : Bool) (s s' : Source (Watched S) B) (h : Usable s) (r : Except IoError Nat)
    (hr : s.fill chk = .ok (r, s')) : ReadsBelow (max 1 s.request) s s' := by
  rcases Source.fill_spec chk s h with ⟨h1, _⟩ | ⟨e, s1, xs, h1, h2⟩ | ⟨n, s1, xs, h1, h2⟩
  · rw [h1] at hr; cases hr
  · rw [h1] at hr; cases hr; exact (Dialogue.filled h2 (Nat.le_refl _)).1
  · rw [h1] at hr; cases hr; exact (Dialogue.filled h2 (Nat.le_refl _)).1

/-- `read` goes on reading until there is enough for the whole slice it was given. -/
theorem C97_read (chk : Bool) (k : Nat) (s s' : Source (Watched S) B) (h : Usable s)
    (r : Except IoError (List I)) (hr : s.read chk k = .ok (r, s')) : ReadsBelow k s s' := by
  rcases Source.read_spec chk k s h with ⟨h1, _, h2⟩ | ⟨e, s1, xs, h1, h2⟩ |
    ⟨n, s1, xs, b, h1, h2, h3, h4, _⟩
  · rw [h1] at hr; cases hr
  · rw [h1] at hr; cases hr; exact (Dialogue.filled h2 (Nat.le_refl _)).1
  · rw [h1] at hr; cases hr; exact (Dialogue.filled h2 (Nat.le_refl _)).1

/-- `fill_buf` goes on until there is as much as the capacity. -/
theorem C97_fill_buf (chk : Bool) (s s' : Source (Watched S) B) (h : Usable s)
    (r : Except IoError (List I)) (hr : s.fillBuf chk = .ok (r, s')) : ReadsBelow s.capacity s s' := by
  rcases Source.fillBuf_spec chk s h with ⟨h1, _, h2⟩ | ⟨e, s1, xs, h1, h2⟩ | ⟨n, s1, xs, h1, h2⟩
  · rw [h1] at hr; cases hr
  · rw [h1] at hr; cases hr; exact (Dialogue.filled h2 (Nat.le_refl _)).1
  · rw [h1] at hr; cases hr; exact (Dialogue.filled h2 (Nat.le_refl _)).1

/-- And it is not read at all if the call before did not leave the parser waiting for more. -/
theorem C97_none (chk : Bool) (p : Parser σ I T E) (s s' : Source S B) (w w' : σ)
    (h : s.state.incomplete = false) (r : Except (StreamError I E) T)
    (hr : s.parse chk p w = .ok ((r, s'), w')) : s'.source = s.source := by
  rw [Source.parse_eq, h] at hr
  exact (Source.attempt_source chk p s w w' hr).1

/-- A retry loop with any parser which never asks for more than `k` items in total: the data source is
read only while there are fewer than `k` items. -/
theorem C97_retry {rem : S → List I} {errs : S → Nat} (hd : Delivers S rem errs) (chk : Bool) (k : Nat)
    (hk : 1 ≤ k) (p : Parser σ I T E) (s s' : Source (Watched S) B) (h : Usable s)
    (hs : s.state.incomplete = true → s.request ≤ k)
    (hq : AsksWithin k p (ahead (Watched.rem rem) s)) (w w' : σ) (r : Except (StreamError I E) T)
    (hr : retry chk p s w = .ok ((r, s'), w')) : ReadsBelow k s s' :=
  Dialogue.retry_below hd chk hk h (fun hi => by have := hs hi; omega) hq hr

/-- A parser made of the parsers and combinators of the library which comes to a verdict on a beginning
`x` of the data does not ask for anything after `x`. -/
theorem C97_asks {p : Parser σ I T E} (hp : Built streaming p) (x y : List I)
    (hx : ∀ w, Verdict (p ⟨.default, x⟩ w)) : AsksWithin x.length p (x ++ y) := by
  intro a b w n w' he hn
  obtain ⟨r, w1, h1, h2⟩ := hx w
  rcases List.append_eq_append_iff.mp he with ⟨c, rfl, rfl⟩ | ⟨c, rfl, rfl⟩
  · exfalso
    have hst := C07_stable hp x c .default w w1
    cases r with
    | data i t => rw [(hst.1 i t h1).2] at hn; cases hn
    | error i t => rw [hst.2 i t h1] at hn; cases hn
    | incomplete n => exact h2 n rfl
  · rw [List.length_append]
    refine Nat.add_le_add_left (Nat.not_lt.mp fun hlt => ?_) _
    obtain ⟨n', h3, _⟩ := C08_truthful hp a c w w' n hn hlt
    rw [h1] at h3
    cases h3
    exact h2 n' rfl

/-- So the data source is never read once the items are there which decide the verdict. -/
theorem C97_built {rem : S → List I} {errs : S → Nat} (hd : Delivers S rem errs) (chk : Bool)
    {p : Parser σ I T E} (hp : Built streaming p) (s s' : Source (Watched S) B) (h : Usable s)
    (x y : List I) (hne : x ≠ []) (hx : ahead (Watched.rem rem) s = x ++ y)
    (hv : ∀ w, Verdict (p ⟨.default, x⟩ w)) (hs : s.state.incomplete = true → s.request ≤ x.length)
    (w w' : σ) (r : Except (StreamError I E) T) (hr : retry chk p s w = .ok ((r, s'), w')) :
    ReadsBelow x.length s s' :=
  C97_retry hd chk _ (List.length_pos_iff.mpr hne) p s s' h hs (by rw [hx]; exact C97_asks hp x y hv)
    w w' r hr

/-- A dialogue, with a retry loop for each message: all of them are read, and the data source is never
read again once the last of them is there. As this holds for any number of messages and whatever
follows, each message is answered without waiting for anything sent after it. -/
theorem C97_dialogue {rem : S → List I} {errs : S → Nat} (hd : Delivers S rem errs) (chk : Bool)
    (cs : List (Exchange I T E)) (hc : ∀ c ∈ cs, c.Fair) (rest : List I) (s : Source (Watched S) B)
    (h : Ready (Watched.rem rem) s) (hs : s.state.incomplete = true → s.request ≤ 1)
    (hx : ahead (Watched.rem rem) s = messages cs ++ rest)
    (hb : ∀ c ∈ cs, LawfulBuffer.CanHold s.buffer c.message.length) :
    ∃ s', sourceCalls chk (cs.map (·.parser)) s = .ok (cs.map fun c => .ok c.value, s') ∧
      ahead (Watched.rem rem) s' = rest ∧ ReadsBelow (messages cs).length s s' ∧
      Ready (Watched.rem rem) s' := by
  induction cs generalizing s with
  | nil => exact ⟨s, rfl, hx, Dialogue.below_refl _ rfl, h⟩
  | cons c cs ih =>
    have hf := hc c List.mem_cons_self
    have hx1 : ahead (Watched.rem rem) s = c.message ++ (messages cs ++ rest) := by
      rw [hx]; simp [messages]
    have hst := fun rest' m => ((C07_stable hf.built c.message rest' m () ()).1 _ _ hf.reads).2
    have hv : ∀ w, Verdict (c.parser ⟨.default, c.message⟩ w) := fun _ => ⟨_, _, hf.reads, nofun⟩
    have hask := C97_asks hf.built c.message (messages cs ++ rest) hv
    have hend : c.parser ⟨.endOfInput, ahead (Watched.rem rem) s⟩ () =
        .ok (.data ⟨.endOfInput, messages cs ++ rest⟩ c.value, ()) := by
      rw [hx1]; exact hst _ _
    have hfit : Fits c.parser s.buffer (ahead (Watched.rem rem) s) :=
      ⟨fun x y n he hn => LawfulBuffer.canHold_le (hask x y () n () (hx1.symm.trans he) hn)
        (hb c List.mem_cons_self), fun n hn => by rw [hend] at hn; cases hn⟩
    have hag := C51_retry (Dialogue.delivers hd) chk hf.built s h
      (by rw [hx1]; exact fun h0 => hf.nonempty (List.append_eq_nil_iff.mp h0).1) hfit
    rw [hend] at hag
    obtain ⟨s1, h1, h2, h3, h4⟩ := hag
    have hpos := List.length_pos_iff.mpr hf.nonempty
    have hbelow := C97_built hd chk hf.built s s1 h.usable _ _ hf.nonempty hx1 hv
      (fun hi => Nat.le_trans (hs hi) hpos) () () _ h1
    obtain ⟨⟨xs, hxs⟩, hinc⟩ := Dialogue.retry_after h.usable h.automatic h1
    have hinc := hinc ⟨_, rfl⟩
    obtain ⟨s2, g1, g2, g3, g4⟩ := ih (fun c hm => hc c (List.mem_cons_of_mem _ hm)) s1 h3
      (fun hi => by rw [hinc] at hi; cases hi) h2
      (fun c hm => h4 _ (hb c (List.mem_cons_of_mem _ hm)))
    refine ⟨s2, ?_, g2, ?_, g4⟩
    · show (retry chk c.parser s () >>= _) = _
      rw [h1, Res.bind_ok]
      show (sourceCalls chk (cs.map (·.parser)) s1 >>= _) = _
      rw [g1]
      rfl
    · obtain ⟨t1, t2⟩ := Dialogue.reads_total hxs
      have e1 := (hxs.rem (Dialogue.delivers hd)).1
      have e2 := congrArg List.length hx1
      have e3 := congrArg List.length h2
      have e4 := congrArg List.length e1
      unfold ahead at e2 e3
      simp only [List.length_append] at e2 e3 e4
      have e5 : (messages (c :: cs)).length = c.message.length + (messages cs).length := by
        simp [messages]
      rw [e5]
      obtain ⟨n1, k1, k2⟩ := hbelow
      obtain ⟨n2, k3, k4⟩ := g3
      refine ⟨n1 ++ n2, by rw [k3, k1, List.append_assoc], fun d hm => ?_⟩
      rcases List.mem_append.mp hm with hm | hm
      · have := k2 d hm; omega
      · have := k4 d hm; omega

end

/-! ### Concrete cases -/

namespace DialogueExample

/-- A message: the number of items, and the items. -/
def framed : Parser Unit Nat (List Nat) (Error Nat) := Parser.bind id Parsers.any Parsers.take

theorem framed_built : Built streaming framed := .bind .any fun n => .take n

/-- Three messages. -/
def three : List (Exchange Nat (List Nat) (Error Nat)) :=
  [⟨framed, [2, 7, 8], [7, 8]⟩, ⟨framed, [0], []⟩, ⟨framed, [1, 5], [5]⟩]

theorem three_fair : ∀ c ∈ three, c.Fair := by
  intro c hc
  simp only [three, List.mem_cons, List.not_mem_nil, or_false] at hc
  rcases hc with rfl | rfl | rfl <;> exact ⟨framed_built, nofun, rfl⟩

/-- C97: three messages, however the data is cut and whatever follows: they are read without reading
the data source again once six items have been delivered. -/
example (chk : Bool) (d : Script Nat) (rest : List Nat) (hx : d.rem = [2, 7, 8, 0, 1, 5] ++ rest) :
    ∃ s', sourceCalls chk [framed, framed, framed]
        (Source.withBuffer (⟨d, 0, []⟩ : Watched (Script Nat))
          (⟨List.replicate 4 none, 0, 0⟩ : FixedSizeBuffer Nat)) =
        .ok ([.ok [7, 8], .ok [], .ok [5]], s') ∧
      ahead (Watched.rem Script.rem) s' = rest ∧ ∀ n ∈ s'.source.log, n < 6 := by
  obtain ⟨h1, _⟩ := (C48_new (S := Script Nat) (B := FixedSizeBuffer Nat)).2.1 4 _ rfl
  obtain ⟨s', g1, g2, ⟨new, g3, g4⟩, _⟩ := C97_dialogue Script.delivers chk three three_fair rest
    (Source.withBuffer (⟨d, 0, []⟩ : Watched (Script Nat))
      (⟨List.replicate 4 none, 0, 0⟩ : FixedSizeBuffer Nat))
    ⟨h1, rfl, nofun, fun _ => by show max 1 0 ≤ 4; decide⟩ (fun _ => Nat.zero_le _) hx (by
      intro c hc
      simp only [three, List.mem_cons, List.not_mem_nil, or_false] at hc
      rcases hc with rfl | rfl | rfl <;> (show _ ≤ 4; decide))
  refine ⟨s', g1, g2, fun n hn => ?_⟩
  rw [g3] at hn
  have := (g4 n hn).2
  change 0 + (n - 0) < 6 at this
  omega

/-- Two items arrive, then a third one. -/
def pieces : Source (Watched (Script Nat)) (FixedSizeBuffer Nat) :=
  Source.withBuffer ⟨⟨[.data 1 [5], .data 6 []]⟩, 0, []⟩ ⟨List.replicate 4 none, 0, 0⟩

/-- C97: the message is read with one read, -/
example (chk : Bool) : ∃ s', retry chk framed pieces () = .ok ((.ok [5], s'), ()) ∧
    s'.source.log = [0] := by
  have h1 : ∃ s', pieces.parse chk framed () = .ok ((.ok [5], s'), ()) ∧ s'.source.log = [0] := by
    cases chk <;> exact ⟨_, Source.parse_of_fuel 5 rfl, rfl⟩
  obtain ⟨s', h1, h2⟩ := h1
  refine ⟨s', ?_, h2⟩
  rw [retry_eq, h1]
  rfl

/-- but `read` into a slice of length three reads again although two items are there, -/
example (chk : Bool) : ∃ s', pieces.read chk 3 = .ok (.ok [1, 5, 6], s') ∧
    s'.source.log = [0, 2] := by
  cases chk <;> exact ⟨_, Source.read_of_fuel 5 rfl, rfl⟩

/-- as does `fill_buf`, until the buffer is full or nothing more comes. -/
example (chk : Bool) : ∃ s', pieces.fillBuf chk = .ok (.ok [1, 5, 6], s') ∧
    s'.source.log = [0, 2, 3] := by
  cases chk <;> exact ⟨_, Source.fillBuf_of_fuel 5 rfl, rfl⟩

/-- C97: a new source is read once even for a parser which needs nothing; therefore the message must not
be empty. -/
example (chk : Bool) : ∃ s', pieces.parse chk (Parser.ret 3 : Parser Unit Nat Nat (Error Nat)) () =
    .ok ((.ok 3, s'), ()) ∧ s'.source.log = [0] := by
  cases chk <;> exact ⟨_, Source.parse_of_fuel 5 rfl, rfl⟩

/-- C97: `take_while` has to see the item after its last one: it reads again with two items there. -/
example (chk : Bool) : ∃ s', retry chk (Parsers.takeWhile (· < 6) : Parser Unit Nat (List Nat) (Error Nat))
    pieces () = .ok ((.ok [1, 5], s'), ()) ∧ s'.source.log = [0, 2] := by
  have h1 : ∃ s1, pieces.parse chk (Parsers.takeWhile (· < 6) : Parser Unit Nat (List Nat) (Error Nat)) () =
        .ok ((.error .retry, s1), ()) ∧
      ∃ s', s1.parse chk (Parsers.takeWhile (· < 6) : Parser Unit Nat (List Nat) (Error Nat)) () =
        .ok ((.ok [1, 5], s'), ()) ∧ s'.source.log = [0, 2] := by
    cases chk <;> exact ⟨_, Source.parse_of_fuel 5 rfl, _, Source.parse_of_fuel 5 rfl, rfl⟩
  obtain ⟨s1, h1, s', h2, h3⟩ := h1
  refine ⟨s', ?_, h3⟩
  rw [retry_eq, h1, Res.bind_ok]
  dsimp only [again]
  rw [retry_eq, h2]
  rfl

/-- C97: the hypotheses of the theorem about one retry loop hold for `framed` on a message. -/
example (chk : Bool) (d : Script Nat) (rest : List Nat) (hx : d.rem = [2, 7, 8] ++ rest)
    (s' : Source (Watched (Script Nat)) (FixedSizeBuffer Nat))
    (r : Except (StreamError Nat (Error Nat)) (List Nat))
    (hr : retry chk framed (Source.withBuffer (⟨d, 0, []⟩ : Watched (Script Nat))
      (⟨List.replicate 4 none, 0, 0⟩ : FixedSizeBuffer Nat)) () = .ok ((r, s'), ())) :
    ∀ n ∈ s'.source.log, n < 3 := by
  obtain ⟨h1, _⟩ := (C48_new (S := Script Nat) (B := FixedSizeBuffer Nat)).2.1 4 _ rfl
  obtain ⟨new, g3, g4⟩ := C97_built Script.delivers chk framed_built
    (Source.withBuffer (⟨d, 0, []⟩ : Watched (Script Nat))
      (⟨List.replicate 4 none, 0, 0⟩ : FixedSizeBuffer Nat)) s' h1 [2, 7, 8] rest nofun hx
    (fun _ => ⟨_, _, rfl, nofun⟩) (fun _ => Nat.zero_le _) () () r hr
  intro n hn
  rw [g3] at hn
  have := (g4 n hn).2
  change 0 + (n - 0) < 3 at this
  omega

end DialogueExample

end Chomp.Props
