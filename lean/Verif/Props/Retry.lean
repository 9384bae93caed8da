import Verif.Lemmas.Retry
import Verif.Lemmas.Mono
import Verif.Props.Source

/-
C51 to C53: the retry loop around `parse`.

Parsers have no captured state here (`σ = Unit`) in C51 and C52: the closures of a parser are run again
on every retry, so a parser whose closures remember things does depend on the chunks.
-/

set_option linter.unusedSectionVars false

namespace Chomp.Props

open Spec

section
variable {S B I : Type} [DataSource S I] [HonestSource S I] [Buffer B I] [LawfulBuffer B I]

/-! ### C51 -/

/-- The retry loop gives what the parser gives on all of the data at once, and leaves the stream at
the same position. -/
theorem C51_retry {rem : S → List I} {errs : S → Nat} (hd : Delivers S rem errs) (chk : Bool)
    {p : Parser Unit I T E} (hp : Built streaming p) (s : Source S B) (h : Ready rem s)
    (hne : ahead rem s ≠ []) (hfit : Fits p s.buffer (ahead rem s)) :
    Agrees rem s (p ⟨.endOfInput, ahead rem s⟩ ()) (retry chk p s ()) :=
  retry_agrees hd chk rfl hp hp.anything s h hne hfit

/-- New sources are ready, if the buffer can hold something. -/
theorem C51_new (rem : S → List I) (s : S) (b : B) (hb : LawfulBuffer.Inv b)
    (hc : LawfulBuffer.CanHold b 1) :
    Ready rem (Source.withBuffer s b) ∧ ahead rem (Source.withBuffer s b) = LawfulBuffer.view b ++ rem s :=
  ⟨⟨hb, rfl, nofun, fun _ => hc⟩, rfl⟩

/-- Two ways to cut the same data, through any buffers, in debug or release builds: the same answer,
and the same position afterwards. -/
theorem C51_chunking {S' B' : Type} [DataSource S' I] [HonestSource S' I] [Buffer B' I]
    [LawfulBuffer B' I] {rem : S → List I} {errs : S → Nat} (hd : Delivers S rem errs)
    {rem' : S' → List I} {errs' : S' → Nat} (hd' : Delivers S' rem' errs') (chk chk' : Bool)
    {p : Parser Unit I T E} (hp : Built streaming p) (s : Source S B) (s' : Source S' B')
    (h : Ready rem s) (h' : Ready rem' s') (hsame : ahead rem s = ahead rem' s')
    (hne : ahead rem s ≠ []) (hfit : Fits p s.buffer (ahead rem s))
    (hfit' : Fits p s'.buffer (ahead rem' s')) :
    (∃ r t r' t', retry chk p s () = .ok ((r, t), ()) ∧ retry chk' p s' () = .ok ((r', t'), ()) ∧
      SameAnswer r r' ∧ ahead rem t = ahead rem' t' ∧ Ready rem t ∧ Ready rem' t') ∨
    (retry chk p s () = .panic ∧ retry chk' p s' () = .panic) ∨
    (retry chk p s () = .ub ∧ retry chk' p s' () = .ub) ∨
    (retry chk p s () = .div ∧ retry chk' p s' () = .div) := by
  have a := C51_retry hd chk hp s h hne hfit
  have b := C51_retry hd' chk' hp s' h' (by rw [← hsame]; exact hne) hfit'
  rw [← hsame] at b
  match hx : p ⟨.endOfInput, ahead rem s⟩ () with
  | .ok (.data i t, u) =>
    rw [hx] at a b
    obtain ⟨t1, a1, a2, a3⟩ := a
    obtain ⟨t2, b1, b2, b3⟩ := b
    exact .inl ⟨_, _, _, _, a1, b1, rfl, a2.trans b2.symm, a3.1, b3.1⟩
  | .ok (.error _ e, u) =>
    rw [hx] at a b
    obtain ⟨t1, a1, a2, a3⟩ := a
    obtain ⟨t2, b1, b2, b3⟩ := b
    exact .inl ⟨_, _, _, _, a1, b1, rfl, a2.trans b2.symm, a3.1, b3.1⟩
  | .ok (.incomplete n, u) =>
    rw [hx] at a b
    obtain ⟨t1, a1, a2, a3⟩ := a
    obtain ⟨t2, b1, b2, b3⟩ := b
    exact .inl ⟨_, _, _, _, a1, b1, by rw [hsame]; rfl, by rw [a2, b2, hsame], a3.1, b3.1⟩
  | .panic => rw [hx] at a b; exact .inr (.inl ⟨a, b⟩)
  | .ub => rw [hx] at a b; exact .inr (.inr (.inl ⟨a, b⟩))
  | .div => rw [hx] at a b; exact .inr (.inr (.inr ⟨a, b⟩))

/-- In terms of the largest request of the parser (C66): the requests fit if the stream and one request
more fit. -/
theorem C51_fits {K : Nat} {p : Parser Unit I T E} (hp : Built ⟨false, true, some K⟩ p) (b : B)
    (full : List I) (hc : LawfulBuffer.CanHold b (full.length + max 1 K))
    (hu : full.length + max 1 K ≤ usizeMax) : Fits p b full := by
  have hb : ∀ i n u, p i () = .ok (.incomplete n, u) → n ≤ max 1 K := fun i n u h =>
    C66_request rfl hp i () u n h
  refine ⟨fun x y n hx hn => LawfulBuffer.canHold_le ?_ hc, fun n hn => ?_⟩
  · have := hb _ n _ hn
    rw [hx, List.length_append]
    omega
  · have := hb _ n _ hn
    omega

/-- The source has neither been told by a parser that it needs more input nor met the end of the data. -/
def Unaware (s : Source S B) : Prop := s.state.incomplete = false ∧ s.state.endOfInput = false

/-- On an empty slice which is not the last one, the parser does not ask for more input. -/
def Answers (p : Parser Unit I T E) : Prop := ∀ n u, p ⟨.default, []⟩ () ≠ .ok (.incomplete n, u)

/-- With nothing left: `EndOfInput`, unless the source has not noticed yet that it is at the end; then
the parser is run on the empty slice, as if there were more. -/
theorem C67_empty {rem : S → List I} {errs : S → Nat} (hd : Delivers S rem errs) (chk : Bool)
    {p : Parser Unit I T E} (hp : Built streaming p) (s : Source S B) (h : Ready rem s)
    (he : ahead rem s = []) (hfit : Fits p s.buffer []) :
    (Unaware s ∧ Answers p → Agrees rem s (p ⟨.default, []⟩ ()) (retry chk p s ())) ∧
    (¬ (Unaware s ∧ Answers p) → ∃ s', retry chk p s () = .ok ((.error .endOfInput, s'), ()) ∧
      Continues rem s s' ∧ ahead rem s' = []) := by
  have h0 : held s = [] ∧ rem s.source = [] := List.append_eq_nil_iff.mp he
  -- after `Retry`, and on a new source
  have main : ∀ m (s : Source S B), errs s.source = m → Ready rem s → ahead rem s = [] →
      s.state.incomplete = true → ∃ s', retry chk p s () = .ok ((.error .endOfInput, s'), ()) ∧
        Continues rem s s' ∧ ahead rem s' = [] := by
    intro m
    induction m using Nat.strongRecOn with
    | _ m ih =>
      intro s hm h he hi
      rw [retry_eq, Source.parse_eq, if_pos (by simp [hi, h.automatic])]
      rcases fill_ready hd chk s h hi with ⟨e, s1, h1, h2, h3, h4, h5, h6, h7⟩ |
        ⟨n, s1, h1, h2, h3, h4, h5, h6, h7⟩
      · rw [h1]
        simp only [Res.bind_ok, again]
        obtain ⟨s', g1, g2, g3⟩ := ih _ (by omega) s1 rfl h2.1 (h3.trans he) (by rw [h4]; exact hi)
        exact ⟨s', g1, ⟨g2.1, fun t ht => g2.2 t (h2.2 t ht)⟩, g3⟩
      · rw [h1]
        simp only [Res.bind_ok]
        have k0 : held s1 = [] ∧ rem s1.source = [] := List.append_eq_nil_iff.mp (h3.trans he)
        cases hE : s1.state.endOfInput with
        | false => exact absurd k0.1 (h6 hE).1
        | true =>
          rw [Source.attempt_end chk p s1 () h2.1.usable hE k0.1]
          exact ⟨s1, rfl, h2, h3.trans he⟩
  by_cases hi : s.state.incomplete = true
  · exact ⟨fun hc => by simp [Unaware, hi] at hc, fun _ => main _ s rfl h he hi⟩
  · have hi : s.state.incomplete = false := by simpa using hi
    cases hE : s.state.endOfInput with
    | true =>
      refine ⟨fun hc => by simp [Unaware, hE] at hc, fun _ => ?_⟩
      rw [retry_eq, Source.parse_eq, if_neg (by simp [hi])]
      simp only [Res.bind_ok]
      rw [Source.attempt_end chk p s () h.usable hE h0.1]
      exact ⟨s, rfl, ⟨h, fun _ ht => ht⟩, he⟩
    | false =>
      have e : retry chk p s () = s.attempt chk p () >>= fun x =>
          match again x.1 with
          | .inl s' => retry chk p s' x.2
          | .inr r => .ok (r, x.2) := by
        rw [retry_eq, Source.parse_eq, if_neg (by simp [hi])]
        rfl
      have hne : ¬ (s.state.endOfInput = true ∧ held s = []) := by simp [hE]
      have hmode := modeOf_default hE
      have hext := Built.ext rfl hp
      rw [e]
      match hf : p ⟨.default, []⟩ () with
      | .ok (.incomplete n, ()) =>
        refine ⟨fun hc => absurd hf (hc.2 n ()), fun _ => ?_⟩
        rcases attempt_agrees chk rfl hp hp.anything s h hi hne (by rw [he]; exact hfit) with
          ⟨s', h1, h2, h3, h4, h5, h6, h7, h8⟩ | ⟨h1, h2, h3⟩
        · rw [h1]
          simp only [Res.bind_ok, again]
          have : ahead rem s' = [] := by rw [← he]; unfold ahead; rw [h5, h6]
          obtain ⟨s2, g1, g2, g3⟩ := main _ s' rfl h7.1 this h3
          exact ⟨s2, g1, ⟨g2.1, fun t ht => g2.2 t (h7.2 t ht)⟩, g3⟩
        · exfalso
          have hu := canHold_usize (b := s.buffer) h.usable (by
            show (held s).length ≤ _; rw [h0.1]; exact Nat.zero_le _) (hfit.1 [] [] n rfl hf)
          rw [Source.attempt_eq chk p s () h.usable hne, hmode, h0.1, hf] at h1
          simp only [Res.bind_ok, Source.finish, h0.1] at h1
          rw [uaddB_ok hu] at h1
          simp [hE] at h1
      | .ok (.data i t, ()) =>
        refine ⟨fun _ => ?_, fun hc => absurd ⟨⟨hi, hE⟩, fun n u k => by rw [hf] at k; cases k⟩ hc⟩
        obtain ⟨b, h1, h2, h3, h4, h5, h6, h7⟩ := Source.attempt_data (w' := ()) chk hp.anything s ()
          h.usable hne (by rw [hmode, h0.1]; exact hf)
        rw [h1]
        refine ⟨_, rfl, ?_, ⟨h3, h.automatic, h.endOfInput, fun hi' => absurd hi' (by simp [hi])⟩, h7⟩
        show LawfulBuffer.view b ++ rem s.source = _
        rw [h4, h0.2, List.append_nil]
      | .ok (.error y er, ()) =>
        refine ⟨fun _ => ?_, fun hc => absurd ⟨⟨hi, hE⟩, fun n u k => by rw [hf] at k; cases k⟩ hc⟩
        obtain ⟨b, h1, h3, h4, h5, h6, h7⟩ := Source.attempt_error (w' := ()) chk hp.anything s ()
          h.usable hne (by rw [hmode, h0.1]; exact hf)
        rw [h1]
        refine ⟨{ s with buffer := b }, ?_, ?_,
          ⟨h3, h.automatic, h.endOfInput, fun hi' => absurd hi' (by simp [hi])⟩, h7⟩
        · show _ = Res.ok ((Except.error (StreamError.parseError (LawfulBuffer.view b) er), _), ())
          rw [h4]
          rfl
        · show LawfulBuffer.view b ++ rem s.source = _
          rw [h4, h0.2, List.append_nil]
      | .panic =>
        refine ⟨fun _ => ?_, fun hc => absurd ⟨⟨hi, hE⟩, fun n u k => by rw [hf] at k; cases k⟩ hc⟩
        rw [Source.attempt_eq chk p s () h.usable hne, hmode, h0.1, hf]
        rfl
      | .ub =>
        refine ⟨fun _ => ?_, fun hc => absurd ⟨⟨hi, hE⟩, fun n u k => by rw [hf] at k; cases k⟩ hc⟩
        rw [Source.attempt_eq chk p s () h.usable hne, hmode, h0.1, hf]
        rfl
      | .div =>
        refine ⟨fun _ => ?_, fun hc => absurd ⟨⟨hi, hE⟩, fun n u k => by rw [hf] at k; cases k⟩ hc⟩
        rw [Source.attempt_eq chk p s () h.usable hne, hmode, h0.1, hf]
        rfl

theorem retry_empty {rem : S → List I} {errs : S → Nat} (hd : Delivers S rem errs) (chk : Bool)
    {p : Parser Unit I T E} (hp : Built streaming p) (s : Source S B) (h : Ready rem s)
    (he : ahead rem s = []) (hfit : Fits p s.buffer []) :
    (∃ s', retry chk p s () = .ok ((.error .endOfInput, s'), ()) ∧ Continues rem s s' ∧
      ahead rem s' = []) ∨
    (∀ n u, p ⟨.default, []⟩ () ≠ .ok (.incomplete n, u)) := by
  by_cases hc : Unaware s ∧ Answers p
  · exact .inr hc.2
  · exact .inl ((C67_empty hd chk hp s h he hfit).2 hc)

/-! ### C52 -/

/-- One call: a `SliceStream` and a `Source` with the same data ahead give the same answer, and have
the same data ahead afterwards. -/
theorem C52_call {rem : S → List I} {errs : S → Nat} (hd : Delivers S rem errs) (chk chk' : Bool)
    {p : Parser Unit I T E} (hp : Built streaming p) (l : SliceStream I) (s : Source S B)
    (hl : ValidSlice l) (h : Ready rem s) (hsame : unread l = ahead rem s) (hne : unread l ≠ [])
    (hfit : Fits p s.buffer (unread l)) (r : Except (StreamError I E) T) (l' : SliceStream I)
    (hr : l.parse chk p () = .ok ((r, l'), ())) :
    ∃ r' s', retry chk' p s () = .ok ((r', s'), ()) ∧ SameAnswer r r' ∧ ValidSlice l' ∧
      unread l' = ahead rem s' ∧ Continues rem s s' := by
  have a := C51_retry hd chk' hp s h (by rw [← hsame]; exact hne) (by rw [← hsame]; exact hfit)
  rw [← hsame] at a
  match hx : p ⟨.endOfInput, unread l⟩ () with
  | .ok (.data i t, ()) =>
    rw [hx] at a
    obtain ⟨s', a1, a2, a3⟩ := a
    obtain ⟨l1, b1, b2, _, b3⟩ := C42_data chk p hp.anything l hl hne () () i t hx
    rw [b1] at hr
    cases hr
    exact ⟨_, s', a1, rfl, b2, b3.trans a2.symm, a3⟩
  | .ok (.error y e, ()) =>
    rw [hx] at a
    obtain ⟨s', a1, a2, a3⟩ := a
    obtain ⟨l1, b1, b2, _, b3⟩ := C42_error chk p hp.anything l hl hne () () y e hx
    rw [b1] at hr
    cases hr
    exact ⟨_, s', a1, rfl, b2, b3.trans a2.symm, a3⟩
  | .ok (.incomplete n, ()) =>
    rw [hx] at a
    obtain ⟨s', a1, a2, a3⟩ := a
    have hu := hfit.2 n hx
    rw [C42_incomplete chk p l hl hne () () n hx (by omega)] at hr
    cases hr
    exact ⟨_, s', a1, by rw [← hsame]; rfl, hl, by rw [a2, hsame], a3⟩
  | .panic => rw [(C42_crash chk p l hl hne ()).1 hx] at hr; cases hr
  | .div => rw [(C42_crash chk p l hl hne ()).2.1 hx] at hr; cases hr
  | .ub => rw [(C42_crash chk p l hl hne ()).2.2 hx] at hr; cases hr

/-- If the call on the `SliceStream` panics, or does not return, so does the retry loop. -/
theorem C52_crash {rem : S → List I} {errs : S → Nat} (hd : Delivers S rem errs) (chk chk' : Bool)
    {p : Parser Unit I T E} (hp : Built streaming p) (l : SliceStream I) (s : Source S B)
    (hl : ValidSlice l) (h : Ready rem s) (hsame : unread l = ahead rem s) (hne : unread l ≠ [])
    (hfit : Fits p s.buffer (unread l)) :
    (l.parse chk p () = .panic → retry chk' p s () = .panic) ∧
    (l.parse chk p () = .div → retry chk' p s () = .div) ∧
    (l.parse chk p () = .ub → retry chk' p s () = .ub) := by
  have a := C51_retry hd chk' hp s h (by rw [← hsame]; exact hne) (by rw [← hsame]; exact hfit)
  rw [← hsame] at a
  match hx : p ⟨.endOfInput, unread l⟩ () with
  | .ok (.data i t, ()) =>
    obtain ⟨l1, b1, _⟩ := C42_data chk p hp.anything l hl hne () () i t hx
    rw [b1]
    exact ⟨nofun, nofun, nofun⟩
  | .ok (.error y e, ()) =>
    obtain ⟨l1, b1, _⟩ := C42_error chk p hp.anything l hl hne () () y e hx
    rw [b1]
    exact ⟨nofun, nofun, nofun⟩
  | .ok (.incomplete n, ()) =>
    have hu := hfit.2 n hx
    rw [C42_incomplete chk p l hl hne () () n hx (by omega)]
    exact ⟨nofun, nofun, nofun⟩
  | .panic =>
    rw [hx] at a
    rw [(C42_crash chk p l hl hne ()).1 hx]
    exact ⟨fun _ => a, nofun, nofun⟩
  | .div =>
    rw [hx] at a
    rw [(C42_crash chk p l hl hne ()).2.1 hx]
    exact ⟨nofun, fun _ => a, nofun⟩
  | .ub =>
    rw [hx] at a
    rw [(C42_crash chk p l hl hne ()).2.2 hx]
    exact ⟨nofun, nofun, fun _ => a⟩

/-- A call of `parse` on a `SliceStream` does not go back. -/
theorem slice_forward (chk : Bool) (p : Parser Unit I T E) (hp : Built everything p)
    (l l' : SliceStream I) (hl : ValidSlice l) (r : Except (StreamError I E) T)
    (hr : l.parse chk p () = .ok ((r, l'), ())) : ∃ x, unread l = x ++ unread l' := by
  by_cases hu : unread l = []
  · rw [C42_end_of_input chk p l hl hu] at hr
    cases hr
    exact ⟨[], rfl⟩
  · match hx : p ⟨.endOfInput, unread l⟩ () with
    | .ok (.data i t, ()) =>
      obtain ⟨l1, b1, b2, _, b3⟩ := C42_data chk p hp l hl hu () () i t hx
      rw [b1] at hr
      cases hr
      obtain ⟨_, x, hx⟩ := C05_remainder hp _ _ _ _ _ hx
      exact ⟨x, by rw [b3]; exact hx⟩
    | .ok (.error y e, ()) =>
      obtain ⟨l1, b1, b2, _, b3⟩ := C42_error chk p hp l hl hu () () y e hx
      rw [b1] at hr
      cases hr
      obtain ⟨x, hx⟩ := C05_error hp _ _ _ _ _ hx
      exact ⟨x, by rw [b3]; exact hx⟩
    | .ok (.incomplete n, ()) =>
      rw [SliceStream.parse_eq hl, if_neg hu, hx] at hr
      simp only [Res.bind_ok] at hr
      cases h1 : uaddB chk n (unread l).length with
      | ok m =>
        rw [h1] at hr
        simp only [Res.bind_ok] at hr
        cases hr
        exact ⟨[], rfl⟩
      | _ => simp [h1] at hr
    | .panic => rw [(C42_crash chk p l hl hu ()).1 hx] at hr; cases hr
    | .div => rw [(C42_crash chk p l hl hu ()).2.1 hx] at hr; cases hr
    | .ub => rw [(C42_crash chk p l hl hu ()).2.2 hx] at hr; cases hr

/-- Any sequence of calls, until the data is used up. -/
theorem C52_calls {rem : S → List I} {errs : S → Nat} (hd : Delivers S rem errs) (chk chk' : Bool)
    (ps : List (Parser Unit I T E)) (hps : ∀ p ∈ ps, Built streaming p) (l l' : SliceStream I)
    (s : Source S B) (hl : ValidSlice l) (h : Ready rem s) (hsame : unread l = ahead rem s)
    (hfit : ∀ p ∈ ps, ∀ x y, unread l = x ++ y → Fits p s.buffer y)
    (rs : List (Except (StreamError I E) T)) (hr : sliceCalls chk ps l = .ok (rs, l'))
    (hmore : .error .endOfInput ∉ rs) :
    ∃ rs' s', sourceCalls chk' ps s = .ok (rs', s') ∧ SameAnswers rs rs' ∧
      unread l' = ahead rem s' ∧ Continues rem s s' := by
  induction ps generalizing l s rs with
  | nil => cases hr; exact ⟨[], s, rfl, .nil, hsame, h, fun _ ht => ht⟩
  | cons p ps ih =>
    unfold sliceCalls at hr
    match hx : l.parse chk p () with
    | .ok ((r, l1), ()) =>
      rw [hx] at hr
      simp only [Res.bind_ok] at hr
      match hy : sliceCalls chk ps l1 with
      | .ok (rs1, l2) =>
        rw [hy] at hr
        cases hr
        have hne : unread l ≠ [] := by
          intro h0
          rw [C42_end_of_input chk p l hl h0] at hx
          cases hx
          exact hmore (List.mem_cons_self ..)
        obtain ⟨r', s1, g1, g2, g3, g4, g5⟩ := C52_call hd chk chk' (hps p (List.mem_cons_self ..)) l s hl
          h hsame hne (hfit p (List.mem_cons_self ..) [] _ rfl) r l1 hx
        have hpre : ∃ x, unread l = x ++ unread l1 := by
          have hh := slice_forward chk p (hps p (List.mem_cons_self ..)).anything l l1 hl r hx
          exact hh
        obtain ⟨x0, hx0⟩ := hpre
        obtain ⟨rs', s', k1, k2, k3, k4⟩ := ih (fun q hq => hps q (List.mem_cons_of_mem _ hq)) l1 s1 g3
          g5.1 g4 (fun q hq x y hxy => Continues.fits g5
            (hfit q (List.mem_cons_of_mem _ hq) (x0 ++ x) y (by rw [hx0, hxy, List.append_assoc])))
          rs1 hy (fun hm => hmore (List.mem_cons_of_mem _ hm))
        refine ⟨r' :: rs', s', ?_, .cons g2 k2, k3, k4.1, fun t ht => k4.2 t (g5.2 t ht)⟩
        unfold sourceCalls
        rw [g1]
        simp only [Res.bind_ok]
        rw [k1]
        rfl
      | .panic => rw [hy] at hr; cases hr
      | .div => rw [hy] at hr; cases hr
      | .ub => rw [hy] at hr; cases hr
    | .panic => rw [hx] at hr; cases hr
    | .div => rw [hx] at hr; cases hr
    | .ub => rw [hx] at hr; cases hr

/-! ### C53 -/

/-- `Retry` is returned if and only if the parser says that it needs more, on a slice which is not the
last; the request is recorded. This holds for any parser whatsoever. -/
theorem C53_retry (chk : Bool) (p : Parser σ I T E) (s s' : Source S B) (h : Usable s) (w w' : σ)
    (hr : s.parse chk p w = .ok ((.error .retry, s'), w')) :
    ∃ n, p ⟨.default, held s'⟩ w = .ok (.incomplete n, w') ∧ s'.state.incomplete = true ∧
      s'.state.endOfInput = false ∧ s'.state.automaticFill = s.state.automaticFill ∧ Usable s' ∧
      ((held s').length + n ≤ usizeMax → s'.request = (held s').length + n) := by
  rw [Source.parse_eq] at hr
  have run : ∀ s1 : Source S B, Usable s1 → s1.state.automaticFill = s.state.automaticFill →
      s1.attempt chk p w = .ok ((.error .retry, s'), w') →
      ∃ n, p ⟨.default, held s'⟩ w = .ok (.incomplete n, w') ∧ s'.state.incomplete = true ∧
      s'.state.endOfInput = false ∧ s'.state.automaticFill = s.state.automaticFill ∧ Usable s' ∧
      ((held s').length + n ≤ usizeMax → s'.request = (held s').length + n) := by
    intro s1 h1 h2 h3
    obtain ⟨g1, n, m, g2, g3, rfl⟩ := attempt_retry h1 h3
    refine ⟨n, g2, rfl, g1, h2, h1, fun hu => ?_⟩
    change (held s1).length + n ≤ usizeMax at hu
    rw [uaddB_ok hu] at g3
    cases g3
    rfl
  split at hr
  · rcases Source.fill_spec chk s h with ⟨h1, _⟩ | ⟨e, s1, xs, h1, h2⟩ | ⟨n, s1, xs, h1, h2⟩
    · rw [h1] at hr; cases hr
    · rw [h1, Res.bind_ok] at hr; cases hr
    · rw [h1, Res.bind_ok] at hr
      exact run { s1 with state := s1.afterFill } h2.usable
        (by show s1.state.automaticFill = _; rw [h2.state]) hr
  · rw [Res.bind_ok] at hr
    exact run s h rfl hr

/-- The call after a `Retry` with a positive request reads at least one item, or finds the end, or
reports an I/O error; with any parser. -/
theorem C53_progress (chk : Bool) (p : Parser σ I T E) (s s' : Source S B) (h : Usable s) (w w' : σ)
    (h1 : s.state.incomplete = true) (h2 : s.state.automaticFill = true)
    (hq : (held s).length < max 1 s.request) (r : Except (StreamError I E) T)
    (hr : s.parse chk p w = .ok ((r, s'), w')) :
    ∃ xs, Reads s.source xs s'.source ∧
      (xs ≠ [] ∨ s'.state.endOfInput = true ∨ ∃ e, r = .error (.ioError e)) := by
  rw [Source.parse_eq, if_pos (by simp [h1, h2])] at hr
  rcases Source.fill_spec chk s h with ⟨g, _⟩ | ⟨e, s1, xs, g, g2⟩ | ⟨n, s1, xs, g, g2⟩
  · rw [g] at hr; cases hr
  · rw [g, Res.bind_ok] at hr
    cases hr
    exact ⟨xs, g2.reads, .inr (.inr ⟨e, rfl⟩)⟩
  · rw [g, Res.bind_ok] at hr
    obtain ⟨k1, _, k3⟩ := Source.attempt_source chk p _ w w' hr
    refine ⟨xs, by rw [k1]; exact g2.reads, ?_⟩
    by_cases hx : xs = []
    · right; left
      rw [k3]
      show (!decide ((held s1).length ≥ max 1 s1.request)) = true
      rw [g2.request_eq, g2.held, hx, List.append_nil]
      simp only [ge_iff_le, Bool.not_eq_true', decide_eq_false_iff_not]
      omega
    · exact .inl hx

/-- So the loop ends on every finite stream, for every parser which terminates and asks for at least
one item; whether or not its requests fit the buffer. -/
theorem C53_terminates {rem : S → List I} {errs : S → Nat} (hd : Delivers S rem errs) (chk : Bool)
    {p : Parser σ I T E} (hp : Built everything p) (hdiv : ∀ i w, p i w ≠ .div) (s : Source S B)
    (h : Usable s) (ha : s.state.automaticFill = true)
    (hq : ∀ x y w n w', ahead rem s = x ++ y → p ⟨.default, x⟩ w = .ok (.incomplete n, w') →
      1 ≤ n ∧ x.length + n ≤ usizeMax) (w : σ) : retry chk p s w ≠ .div := by
  generalize hm : todo rem errs s = m
  induction m using Nat.strongRecOn generalizing s w with
  | _ m ih =>
    rw [retry_eq]
    match hr : s.parse chk p w with
    | .ok ((r, s'), w') =>
      rw [Res.bind_ok]
      have next : (r = .error .retry ∨ ∃ e, r = .error (.ioError e)) → retry chk p s' w' ≠ .div := by
        intro hn
        obtain ⟨g1, g2, g3, g4⟩ := parse_again hd chk s s' h ha hq hr hn
        exact ih _ (hm ▸ g4) s' g1 g2 (by rw [g3]; exact hq) w' rfl
      match r with
      | .error .retry => exact next (.inl rfl)
      | .error (.ioError e) => exact next (.inr ⟨e, rfl⟩)
      | .error .endOfInput => exact nofun
      | .error (.incomplete n) => exact nofun
      | .error (.parseError b e) => exact nofun
      | .ok t => exact nofun
    | .panic => exact nofun
    | .ub => exact nofun
    | .div =>
      obtain ⟨m, hm⟩ := (C46_source_parse chk s h hp w).2 hr
      exact absurd hm (hdiv _ _)

/-- Where the request recorded is not more than what is in the buffer, the loop spins: `parse` reads
nothing, runs the parser on the same data and returns `Retry` again. -/
theorem C53_spin (chk : Bool) (p : Parser σ I T E) (s : Source S B) (h : Usable s)
    (ha : s.state.automaticFill = true)
    (hs : s.state.incomplete = false ∧ s.state.endOfInput = false ∨
      s.state.incomplete = true ∧ max 1 s.request ≤ (held s).length)
    (hp : ∀ w, ∃ n m w', p ⟨.default, held s⟩ w = .ok (.incomplete n, w') ∧
      uaddB chk (held s).length n = .ok m ∧ max 1 m ≤ (held s).length) (w : σ) :
    retry chk p s w = .div := by
  refine loop_spins (fun s1 _ => Usable s1 ∧ held s1 = held s ∧ s1.state.automaticFill = true ∧
    (s1.state.incomplete = false ∧ s1.state.endOfInput = false ∨
      s1.state.incomplete = true ∧ max 1 s1.request ≤ (held s1).length)) ?_ ⟨h, rfl, ha, hs⟩
  rintro s1 w ⟨k1, k2, k3, k4⟩
  obtain ⟨n, m, w', g1, g2, g3⟩ := hp w
  have run : ∀ s2 : Source S B, Usable s2 → held s2 = held s → s2.state.automaticFill = true →
      s2.state.endOfInput = false → s2.attempt chk p w = .ok ((.error .retry, { s2 with
        request := m, state := { s2.state with incomplete := true } }), w') := by
    intro s2 j1 j2 j3 j4
    rw [Source.attempt_eq chk p s2 w j1 (by simp [j4]), modeOf_default j4, j2, g1, Res.bind_ok]
    unfold Source.finish
    dsimp only
    rw [j2, g2, Res.bind_ok, j4]
    rfl
  rcases k4 with ⟨k4, k5⟩ | ⟨k4, k5⟩
  · refine ⟨{ s1 with request := m, state := { s1.state with incomplete := true } }, w', ?_,
      k1, k2, k3, .inr ⟨rfl, by rw [← k2] at g3; exact g3⟩⟩
    rw [M.map_apply, Source.parse_eq, if_neg (by simp [k4]), Res.bind_ok]
    dsimp only
    rw [run s1 k1 k2 k3 k5]
    rfl
  · have hf := C49_no_read chk s1 k1 k5
    refine ⟨{ s1 with request := m, state :=
        { s1.state with incomplete := true, endOfInput := false } }, w', ?_,
      k1, k2, k3, .inr ⟨rfl, by rw [← k2] at g3; exact g3⟩⟩
    rw [M.map_apply, Source.parse_eq, if_pos (by simp [k4, k3]), hf, Res.bind_ok]
    dsimp only
    rw [run { s1 with state := { s1.state with incomplete := false, endOfInput := false } } k1 k2 k3 rfl]
    rfl

/-- A parser asking for nothing makes the loop spin forever, as soon as there is something in the
buffer. -/
theorem C53_zero (chk : Bool) (p : Parser σ I T E) (s : Source S B) (h : Usable s)
    (ha : s.state.automaticFill = true) (h1 : s.state.incomplete = false)
    (h2 : s.state.endOfInput = false) (hne : held s ≠ [])
    (hp : ∀ w, ∃ w', p ⟨.default, held s⟩ w = .ok (.incomplete 0, w')) (w : σ) :
    retry chk p s w = .div := by
  have hl : 1 ≤ (held s).length := List.length_pos_iff.mpr hne
  refine C53_spin chk p s h ha (.inl ⟨h1, h2⟩) (fun w => ?_) w
  obtain ⟨w', hw⟩ := hp w
  have hz : (held s).length + 0 ≤ usizeMax := by
    have := LawfulBuffer.size (b := s.buffer) h
    have e : (held s).length = (LawfulBuffer.view s.buffer).length := rfl
    omega
  exact ⟨0, _, w', hw, uaddB_ok hz, by omega⟩

end

/-- A new source with an unlimited `GrowingBuffer`, on a stream of up to nearly `2^62` items. -/
theorem C51_growing {S I : Type} [DataSource S I] [HonestSource S I] {rem : S → List I}
    {errs : S → Nat} (hd : Delivers S rem errs) (chk : Bool) {K : Nat} {p : Parser Unit I T E}
    (hp : Built ⟨false, true, some K⟩ p) (s : S) (extra : Nat → Nat) (hne : rem s ≠ [])
    (hl : (rem s).length + max 1 K ≤ 2 ^ 62) :
    Agrees rem (Source.withBuffer s (GrowingBuffer.withLimit extra 0 : GrowingBuffer I))
      (p ⟨.endOfInput, rem s⟩ ())
      (retry chk p (Source.withBuffer s (GrowingBuffer.withLimit extra 0)) ()) := by
  have hr := C51_new rem s (GrowingBuffer.withLimit extra 0 : GrowingBuffer I)
    (GrowingBuffer.withLimit_inv _ _) ⟨rfl, by decide⟩
  have ha : ahead rem (Source.withBuffer s (GrowingBuffer.withLimit extra 0 : GrowingBuffer I)) = rem s :=
    hr.2
  rw [← ha] at hne hl ⊢
  exact C51_retry hd chk (hp.streamed rfl) _ hr.1 hne
    (C51_fits hp _ _ ⟨rfl, hl⟩ (Nat.le_trans hl (by decide)))

/-- A new source with a `FixedSizeBuffer`, which is so large that the parser knows its answer before
it is full. -/
theorem C51_fixed {S I : Type} [DataSource S I] [HonestSource S I] {rem : S → List I}
    {errs : S → Nat} (hd : Delivers S rem errs) (chk : Bool) {K : Nat} {p : Parser Unit I T E}
    (hp : Built ⟨false, true, some K⟩ p) (s : S) (size : Nat) (b : FixedSizeBuffer I)
    (hb : FixedSizeBuffer.withSize size = .ok b) (hne : rem s ≠ [])
    (hsize : ∀ x y n, rem s = x ++ y → p ⟨.default, x⟩ () = .ok (.incomplete n, ()) →
      x.length + max 1 K ≤ size)
    (hu : (rem s).length + max 1 K ≤ usizeMax) :
    Agrees rem (Source.withBuffer s b) (p ⟨.endOfInput, rem s⟩ ())
      (retry chk p (Source.withBuffer s b) ()) := by
  obtain ⟨h1, h2⟩ := (C48_new (S := S) (B := FixedSizeBuffer I)).2.1 size b hb
  have hlen : b.buffer.length = size ∧ 0 < size := by
    by_cases h0 : 0 < size
    · by_cases h1 : size ≤ isizeMax
      · obtain ⟨b', g1, _⟩ := FixedSizeBuffer.withSize_inv (I := I) h0 h1
        rw [g1] at hb
        simp [FixedSizeBuffer.withSize, assert, h0, h1] at g1
        cases hb
        rw [← g1]
        exact ⟨by simp, h0⟩
      · simp [FixedSizeBuffer.withSize, assert, h0, h1] at hb
    · simp [FixedSizeBuffer.withSize, assert, h0] at hb
  have hr := C51_new rem s b h1 (show 1 ≤ b.buffer.length by omega)
  have ha : ahead rem (Source.withBuffer s b) = rem s := by rw [hr.2, h2, List.nil_append]
  have hq : ∀ i n u, p i () = .ok (.incomplete n, u) → n ≤ max 1 K := fun i n u h =>
    C66_request rfl hp i () u n h
  have hfit : Fits p b (rem s) := by
    refine ⟨fun x y n hx hn => ?_, fun n hn => ?_⟩
    · have a1 := hsize x y n hx hn
      have a2 := hq _ n _ hn
      show x.length + n ≤ b.buffer.length
      omega
    · have := hq _ n _ hn
      omega
  rw [← ha] at hne hfit ⊢
  exact C51_retry hd chk (hp.streamed rfl) _ hr.1 hne hfit

/-- Reachable without a parser of that kind, in a release build, through the overflow of C60: `take(1)`
then `take(usize::MAX)` asks for `1 + usize::MAX` items, which is recorded as a request for none. -/
theorem C53_overflow : ∃ b : FixedSizeBuffer Nat, FixedSizeBuffer.withSize 8 = .ok b ∧
    retry false (Parser.andThen id (Parsers.take 1) (Parsers.take usizeMax) :
      Parser Unit Nat (List Nat) (Error Nat))
      (Source.withBuffer (⟨[.data 7 []]⟩ : Script Nat) b) () = .div := by
  obtain ⟨b, hb, hinv, _⟩ := FixedSizeBuffer.withSize_inv (I := Nat) (n := 8) (by decide) (by decide)
  refine ⟨b, hb, ?_⟩
  cases hb
  have run : ∃ s1, (Source.withBuffer (⟨[.data 7 []]⟩ : Script Nat)
      (⟨List.replicate 8 none, 0, 0⟩ : FixedSizeBuffer Nat)).parse false
      (Parser.andThen id (Parsers.take 1) (Parsers.take usizeMax) :
        Parser Unit Nat (List Nat) (Error Nat)) () = .ok ((.error .retry, s1), ()) ∧
      held s1 = [7] ∧ s1.request = 0 ∧ s1.state.automaticFill = true ∧ s1.state.incomplete = true :=
    ⟨_, Source.parse_of_fuel 5 rfl, rfl, rfl, rfl, rfl⟩
  obtain ⟨s1, h1, h2, h3, h4, h5⟩ := run
  have hu := (C48_parse false (.andThen (.take _) (.take _)) (Source.withBuffer _ _) s1
    (show LawfulBuffer.Inv _ from hinv) () () _ h1).1
  rw [retry_eq, h1]
  refine C53_spin false _ s1 hu h4 (.inr ⟨h5, by rw [h2, h3]; decide⟩) (fun w => ?_) ()
  rw [h2]
  exact ⟨usizeMax, 0, (), rfl, rfl, by decide⟩


/-! ### Examples -/

namespace Ex

/-- A word of ones, a nine, and the item after it. -/
def word : Parser Unit Nat (List Nat) (Error Nat) :=
  Parser.bind id (Parsers.takeWhile1 true (· == 1)) fun w =>
    Parser.bind id (Parsers.token true 9) fun _ => Parser.bind id Parsers.any fun x => Parser.ret (x :: w)

theorem word_built : Built ⟨false, true, some 0⟩ word :=
  .bind (.takeWhile1 _ _) fun _ => .bind (.token _ _) fun _ => .bind .any fun _ => .ret _

/-- The stream `1 1 1 9 5 6`, in three pieces and with I/O errors. -/
def pieces : Script Nat := ⟨[.data 1 [1], .err ⟨1⟩, .data 1 [9], .err ⟨2⟩, .err ⟨3⟩, .data 5 [6]]⟩

/-- C51, C66: the retry loop finds the word, and the last item is still to come. -/
example (chk : Bool) (extra : Nat → Nat) : ∃ s',
    retry chk word (Source.withBuffer pieces (GrowingBuffer.withLimit extra 0)) () =
      .ok ((.ok [5, 1, 1, 1], s'), ()) ∧ ahead Script.rem s' = [6] := by
  obtain ⟨s', h1, h2, _⟩ := C51_growing Script.delivers chk word_built pieces extra
    (fun h => by cases h) (by decide)
  exact ⟨s', h1, h2⟩

/-- In a buffer of size five too: with four items or less the parser asks for at most one more, with
five it has its answer. -/
theorem fixed (chk : Bool) : ∃ s',
    retry chk word (Source.withBuffer pieces (⟨List.replicate 5 none, 0, 0⟩ : FixedSizeBuffer Nat)) () =
      .ok ((.ok [5, 1, 1, 1], s'), ()) ∧ ahead Script.rem s' = [6] := by
  obtain ⟨s', h1, h2, _⟩ := C51_fixed Script.delivers chk word_built pieces 5
    ⟨List.replicate 5 none, 0, 0⟩ rfl (fun h => by cases h) (fun x y n hx hn => by
      have e : [1, 1, 1, 9, 5, 6] = x ++ y := hx
      match x, e with
      | [], _ => decide
      | [_], _ => simp
      | [_, _], _ => simp
      | [_, _, _], _ => simp
      | [_, _, _, _], _ => simp
      | _ :: _ :: _ :: _ :: _ :: _, e =>
        simp only [List.cons_append, List.cons.injEq] at e
        obtain ⟨rfl, rfl, rfl, rfl, rfl, e⟩ := e
        cases hn) (by decide)
  exact ⟨s', h1, h2⟩

/-- C52: a `SliceStream` on the same data gives the same answers, call by call; the second call fails
on what the first has left. -/
example (chk chk' : Bool) (extra : Nat → Nat) : ∃ rs' s',
    sourceCalls chk' [word, word]
      (Source.withBuffer pieces (GrowingBuffer.withLimit extra 0 : GrowingBuffer Nat)) = .ok (rs', s') ∧
    SameAnswers [.ok [5, 1, 1, 1], .error (.parseError [6] .unexpected)] rs' := by
  have hr := C51_new Script.rem pieces (GrowingBuffer.withLimit extra 0 : GrowingBuffer Nat)
    (GrowingBuffer.withLimit_inv _ _) ⟨rfl, by decide⟩
  have hl : ∃ l', sliceCalls chk [word, word] (SliceStream.new [1, 1, 1, 9, 5, 6]) =
      .ok ([.ok [5, 1, 1, 1], .error (.parseError [6] .unexpected)], l') := by
    cases chk <;> exact ⟨_, rfl⟩
  obtain ⟨l', hl⟩ := hl
  obtain ⟨rs', s', h1, h2, _⟩ := C52_calls Script.delivers chk chk' [word, word]
    (fun p hp => by
      have : p = word := by simpa using hp
      rw [this]; exact word_built.streamed rfl)
    (SliceStream.new [1, 1, 1, 9, 5, 6]) l' _ ⟨Nat.zero_le _, by decide⟩ hr.1 hr.2.symm
    (fun p hp x y hxy => by
      have : p = word := by simpa using hp
      have hlen := congrArg List.length hxy
      have e : (unread (SliceStream.new [1, 1, 1, 9, 5, 6])).length = 6 := rfl
      rw [e, List.length_append] at hlen
      rw [this]
      have a : y.length + max 1 0 ≤ 2 ^ 62 := by omega
      exact C51_fits word_built _ _ ⟨rfl, a⟩ (Nat.le_trans a (by decide)))
    _ hl (by simp)
  exact ⟨rs', s', h1, h2⟩

/-- C53: `take(2)` on one item asks for one more, and the loop ends on every stream. -/
example (chk : Bool) (s : Script Nat) (hs : s.rem.length + 2 ≤ usizeMax) :
    retry chk (Parsers.take 2 : Parser Unit Nat (List Nat) (Error Nat))
      (Source.withBuffer s (⟨List.replicate 4 none, 0, 0⟩ : FixedSizeBuffer Nat)) () ≠ .div := by
  obtain ⟨h1, _⟩ := (C48_new (S := Script Nat) (B := FixedSizeBuffer Nat)).2.1 4 _ rfl
  refine C53_terminates Script.delivers chk (.take 2) (fun i w h => ?_)
    (Source.withBuffer s _) h1 rfl (fun x y w n w' hx hn => ?_) ()
  · rw [Parsers.take_eq] at h
    split at h <;> cases h
  · have e := congrArg List.length (show s.rem = x ++ y from hx)
    rw [List.length_append] at e
    rw [Parsers.take_eq] at hn
    split at hn
    · cases hn
    · rename_i hlt
      cases hn
      dsimp only at hlt ⊢
      omega

/-- C53: `incomplete(0)` makes it spin. -/
example (chk : Bool) : ∃ s : Source (Script Nat) (FixedSizeBuffer Nat),
    retry chk (fun i => pure (i.incomplete 0) : Parser Unit Nat Nat (Error Nat)) s () = .div :=
  ⟨{ waiting with state := ⟨false, false, true⟩ }, C53_zero chk _
    { waiting with state := ⟨false, false, true⟩ } waiting_usable rfl rfl rfl
    (fun h => by cases h) (fun w => ⟨w, rfl⟩) ()⟩

/-- C67: once `take(1)` has taken the only item, `ret(7)` succeeds on a `Source` and gets `EndOfInput`
on a `SliceStream`. -/
theorem _root_.Chomp.Props.C67_witness (chk : Bool) : ∃ (s1 s2 : Source (Script Nat) (FixedSizeBuffer Nat)) (l1 l2 : SliceStream Nat),
    (Source.withBuffer (⟨[.data 1 []]⟩ : Script Nat) ⟨List.replicate 4 none, 0, 0⟩).parse chk
      (Parsers.take 1 : Parser Unit Nat (List Nat) (Error Nat)) () = .ok ((.ok [1], s1), ()) ∧
    s1.parse chk (Parser.ret 7 : Parser Unit Nat Nat (Error Nat)) () = .ok ((.ok 7, s2), ()) ∧
    ahead Script.rem s1 = [] ∧
    (SliceStream.new [1]).parse chk
      (Parsers.take 1 : Parser Unit Nat (List Nat) (Error Nat)) () = .ok ((.ok [1], l1), ()) ∧
    l1.parse chk (Parser.ret 7 : Parser Unit Nat Nat (Error Nat)) () =
      .ok ((.error .endOfInput, l2), ()) := by
  cases chk
  · exact ⟨_, _, _, _, Source.parse_of_fuel 5 rfl, Source.parse_of_fuel 5 rfl, rfl, rfl, rfl⟩
  · exact ⟨_, _, _, _, Source.parse_of_fuel 5 rfl, Source.parse_of_fuel 5 rfl, rfl, rfl, rfl⟩

end Ex
end Chomp.Props
