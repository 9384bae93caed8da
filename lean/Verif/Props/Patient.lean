import Verif.Spec.Patient
import Verif.Props.Records
import Verif.Props.Http
import Verif.Lemmas.Derived

/-
C88: reading to the end, from a slice and from a source, in the presence of I/O errors.
-/

set_option linter.unusedSectionVars false

namespace Chomp.Props

open Spec Http

section
variable {I T E A : Type}

theorem Reader.mode {K : Nat} {p : Parser Unit I T E} (hp : Reader K p) {b : List I} {i : Input I} {t : T}
    (h : p ⟨.endOfInput, b⟩ () = .ok (.data i t, ())) :
    p ⟨.endOfInput, b⟩ () = .ok (.data ⟨.endOfInput, i.buf⟩ t, ()) := by
  have := (C05_remainder hp.built.anything _ _ _ _ _ h).1
  cases i
  cases this
  exact h

/-- There always is a last value, -/
theorem C88_values {K : Nat} {p : Parser Unit I T E} (hp : Reader K p) (b : List I) :
    ∃ xs rest, Values p b xs rest ∧ Stops p rest := by
  generalize hm : b.length = m
  induction m using Nat.strongRecOn generalizing b with
  | _ m ih =>
    match b with
    | [] => exact ⟨[], [], .nil, .inl rfl⟩
    | x :: b =>
      obtain ⟨r, hr⟩ := hp.returns ⟨.endOfInput, x :: b⟩
      cases r with
      | data i t =>
        have hr' := Reader.mode hp hr
        have hlt := hp.consumes _ _ _ hr
        obtain ⟨xs, rest, h1, h2⟩ := ih i.buf.length (by subst hm; exact hlt) i.buf rfl
        exact ⟨t :: xs, rest, .cons hr' h1, h2⟩
      | error y e => exact ⟨[], _, .nil, .inr fun i t h => by rw [hr] at h; cases h⟩
      | incomplete n => exact ⟨[], _, .nil, .inr fun i t h => by rw [hr] at h; cases h⟩

/-- and only one, so what is read is determined by the data. -/
theorem C88_unique {K : Nat} {p : Parser Unit I T E} (hp : Reader K p) {b rest rest' : List I} {xs xs' : List T}
    (h : Values p b xs rest) (h' : Values p b xs' rest') (hs : Stops p rest) (hs' : Stops p rest') :
    xs = xs' ∧ rest = rest' := by
  have stop : ∀ (b rest : List I) (t : T) (b' : List I), Stops p b →
      p ⟨.endOfInput, b⟩ () ≠ .ok (.data ⟨.endOfInput, b'⟩ t, ()) := by
    intro b rest t b' hs hd
    rcases hs with rfl | hs
    · have := hp.consumes _ _ _ hd
      simp at this
    · exact hs _ _ hd
  induction h generalizing xs' with
  | nil =>
    cases h' with
    | nil => exact ⟨rfl, rfl⟩
    | cons hd _ => exact absurd hd (stop _ rest' _ _ hs)
  | cons hd _ ih =>
    cases h' with
    | nil => exact absurd hd (stop _ rest' _ _ hs')
    | cons hd' h' =>
      rw [hd] at hd'
      cases hd'
      obtain ⟨rfl, e⟩ := ih h' hs
      exact ⟨rfl, e⟩

theorem Reader.last {K : Nat} {p : Parser Unit I T E} (hp : Reader K p) {rest : List I} (hs : Stops p rest)
    (hne : rest ≠ []) :
    (∃ n, p ⟨.endOfInput, rest⟩ () = .ok (.incomplete n, ())) ∨
    ∃ b e, p ⟨.endOfInput, rest⟩ () = .ok (.error b e, ()) := by
  obtain ⟨r, hr⟩ := hp.returns ⟨.endOfInput, rest⟩
  cases r with
  | data i t =>
    rcases hs with rfl | hs
    · exact absurd rfl hne
    · exact absurd hr (hs _ _)
  | error y e => exact .inr ⟨_, _, hr⟩
  | incomplete n => exact .inl ⟨_, hr⟩

/-- One turn. -/
theorem fromSlice_eq (chk : Bool) (p : Parser σ I T E) (f : A → T → Res A) (s : SliceStream I) (a : A)
    (w : σ) : fromSlice chk p f s a w = s.parse chk p w >>= fun x =>
      match x.1 with
      | (.ok t, s') => f a t >>= fun a' => fromSlice chk p f s' a' x.2
      | (.error .endOfInput, _) => .ok (.ok a, x.2)
      | (.error e, _) => .ok (.error e, x.2) := by
  show loop _ _ w = _
  rw [loop_apply, M.bind_apply]
  dsimp only
  match hr : s.parse chk p w with
  | .ok ((r, s'), w') =>
    simp only [Res.bind_ok]
    match r with
    | .ok t =>
      dsimp only
      rw [M.lift_bind]
      cases f a t <;> rfl
    | .error .retry => rfl
    | .error .endOfInput => rfl
    | .error (.incomplete n) => rfl
    | .error (.parseError b e) => rfl
    | .error (.ioError e) => rfl
  | .panic => rfl
  | .ub => rfl
  | .div => rfl

/-- Reading from a slice. -/
theorem C88_slice {K : Nat} (chk : Bool) {p : Parser Unit I T E} (hp : Reader K p) (f : A → T → Res A)
    (s : SliceStream I) (h : ValidSlice s) (hu : (unread s).length + max 1 K ≤ usizeMax) (xs : List T)
    (rest : List I) (hv : Values p (unread s) xs rest) (hs : Stops p rest) :
    ∃ r : A → Except (StreamError I E) A, (∀ a, Last p a rest (r a)) ∧
      ∀ a, fromSlice chk p f s a () = xs.foldlM f a >>= fun a' => .ok (r a', ()) := by
  induction xs generalizing s with
  | nil =>
    cases hv
    by_cases hne : unread s = []
    · refine ⟨.ok, fun a => by rw [hne]; exact .done, fun a => ?_⟩
      rw [fromSlice_eq, C42_end_of_input chk p s h hne]
      rfl
    · rcases Reader.last hp hs hne with ⟨n, hn⟩ | ⟨b, e, he⟩
      · have hn' := C66_request rfl hp.built _ _ _ _ hn
        refine ⟨fun _ => .error (.incomplete ((unread s).length + n)),
          fun a => .incomplete hne hn, fun a => ?_⟩
        rw [fromSlice_eq, C42_incomplete chk p s h hne () () n hn (by omega)]
        rfl
      · refine ⟨fun _ => .error (.parseError b e),
          fun a => .error (y := []) hne (by simpa using he), fun a => ?_⟩
        obtain ⟨s', h1, _⟩ := C42_error chk p hp.built.anything s h hne () () b e he
        rw [fromSlice_eq, h1]
        rfl
  | cons t ts ih =>
    cases hv with
    | @cons _ b' _ _ _ hx hv =>
      have hlt : b'.length < (unread s).length := hp.consumes _ _ _ hx
      have hne : unread s ≠ [] := by intro h0; rw [h0] at hlt; simp at hlt
      obtain ⟨s', h1, h2, h3⟩ := C42_data chk p hp.built.anything s h hne () () _ t hx
      obtain ⟨r, hr, key⟩ := ih s' h2 (by rw [h3.2]; dsimp only; omega) (by rw [h3.2]; exact hv)
      refine ⟨r, hr, fun a => ?_⟩
      rw [fromSlice_eq, h1, List.foldlM_cons, Res.bind_ok]
      dsimp only
      cases f a t with
      | ok a' => exact key a'
      | panic => rfl
      | ub => rfl
      | div => rfl

end

section
variable {S B I T E A : Type} [DataSource S I] [HonestSource S I] [Buffer B I] [LawfulBuffer B I]

/-- One turn. -/
theorem patient_eq (chk : Bool) (p : Parser σ I T E) (f : A → T → Res A) (s : Source S B) (a : A)
    (w : σ) : patient chk p f s a w = s.parse chk p w >>= fun x =>
      match x.1 with
      | (.ok t, s') => f a t >>= fun a' => patient chk p f s' a' x.2
      | (.error .retry, s') => patient chk p f s' a x.2
      | (.error (.ioError _), s') => patient chk p f s' a x.2
      | (.error .endOfInput, _) => .ok (.ok a, x.2)
      | (.error e, _) => .ok (.error e, x.2) := by
  show loop _ _ w = _
  rw [loop_apply, M.bind_apply]
  dsimp only
  match hr : s.parse chk p w with
  | .ok ((r, s'), w') =>
    simp only [Res.bind_ok]
    match r with
    | .ok t =>
      dsimp only
      rw [M.lift_bind]
      cases f a t <;> rfl
    | .error .retry => rfl
    | .error .endOfInput => rfl
    | .error (.incomplete n) => rfl
    | .error (.parseError b e) => rfl
    | .error (.ioError e) => rfl
  | .panic => rfl
  | .ub => rfl
  | .div => rfl

/-- What follows an answer. -/
def andNext (chk : Bool) (p : Parser σ I T E) (f : A → T → Res A) (a : A) (s : Source S B) (w : σ) :
    Except (StreamError I E) T → Res (Except (StreamError I E) A × σ)
  | .ok t => f a t >>= fun a' => patient chk p f s a' w
  | .error .endOfInput => .ok (.ok a, w)
  | .error e => .ok (.error e, w)

/-- Turns up to the next answer. -/
theorem patient_retry (chk : Bool) (p : Parser σ I T E) (f : A → T → Res A) (s : Source S B) (a : A)
    (w w' : σ) (r : Except (StreamError I E) T) (s' : Source S B)
    (h : retry chk p s w = .ok ((r, s'), w')) :
    patient chk p f s a w = andNext chk p f a s' w' r := by
  have hrun := loop_eq_ok.mp h
  clear h
  generalize ho : (Res.ok ((r, s'), w') : Res _) = o at hrun
  induction hrun with
  | @cont s w s1 w1 o h1 _ ih =>
    rw [patient_eq]
    rw [show (again <$> s.parse chk p) w = s.parse chk p w >>= fun x => .ok (again x.1, x.2) from rfl,
      Res.bind_eq_ok] at h1
    obtain ⟨⟨⟨r1, s2⟩, w2⟩, h2, h3⟩ := h1
    rw [h2, Res.bind_ok]
    match r1, h3 with
    | .ok t, h3 => cases h3
    | .error .retry, h3 => cases h3; exact ih ho
    | .error (.ioError _), h3 => cases h3; exact ih ho
    | .error .endOfInput, h3 => cases h3
    | .error (.incomplete n), h3 => cases h3
    | .error (.parseError b e), h3 => cases h3
  | @brk s w x w1 h1 =>
    cases ho
    rw [patient_eq]
    rw [show (again <$> s.parse chk p) w = s.parse chk p w >>= fun x => .ok (again x.1, x.2) from rfl,
      Res.bind_eq_ok] at h1
    obtain ⟨⟨⟨r1, s2⟩, w2⟩, h2, h3⟩ := h1
    rw [h2, Res.bind_ok]
    match r1, h3 with
    | .ok t, h3 => cases h3; rfl
    | .error .retry, h3 => cases h3
    | .error (.ioError _), h3 => cases h3
    | .error .endOfInput, h3 => cases h3; rfl
    | .error (.incomplete n), h3 => cases h3; rfl
    | .error (.parseError b e), h3 => cases h3; rfl
  | panic => cases ho
  | ub => cases ho

/-- Reading from a source with a buffer which can hold everything, however the data comes and whatever
I/O errors come between. -/
theorem C88_source {rem : S → List I} {errs : S → Nat} (hd : Delivers S rem errs) {K : Nat} (chk : Bool)
    {p : Parser Unit I T E} (hp : Reader K p) (f : A → T → Res A) (s : Source S B)
    (h : Ready rem s) (hc : LawfulBuffer.CanHold s.buffer ((ahead rem s).length + max 1 K))
    (hu : (ahead rem s).length + max 1 K ≤ usizeMax) (xs : List T)
    (rest : List I) (hv : Values p (ahead rem s) xs rest) (hs : Stops p rest) :
    ∃ r : A → Except (StreamError I E) A, (∀ a, Last p a rest (r a)) ∧
      ∀ a, patient chk p f s a () = xs.foldlM f a >>= fun a' => .ok (r a', ()) := by
  induction xs generalizing s with
  | nil =>
    cases hv
    have hfit := C51_fits hp.built s.buffer (ahead rem s) hc hu
    by_cases hne : ahead rem s = []
    · refine ⟨.ok, fun a => by rw [hne]; exact .done, fun a => ?_⟩
      rw [hne] at hfit
      rcases retry_empty hd chk (hp.built.streamed rfl) s h hne hfit with ⟨s', h1, _⟩ | h1
      · rw [patient_retry chk p f s a _ _ _ _ h1]
        rfl
      · obtain ⟨n, hn⟩ := hp.empty
        exact absurd hn (h1 n ())
    · have ha := C51_retry hd chk (hp.built.streamed rfl) s h hne hfit
      rcases Reader.last hp hs hne with ⟨n, hn⟩ | ⟨b, e, he⟩
      · rw [hn] at ha
        obtain ⟨s', h1, _⟩ := ha
        refine ⟨fun _ => .error (.incomplete ((ahead rem s).length + n)),
          fun a => .incomplete hne hn, fun a => ?_⟩
        rw [patient_retry chk p f s a _ _ _ _ h1]
        rfl
      · rw [he] at ha
        obtain ⟨s', h1, h2, _⟩ := ha
        refine ⟨fun _ => .error (.parseError (held s') e),
          fun a => .error (y := rem s'.source) hne ?_, fun a => ?_⟩
        · rw [he, ← h2]; rfl
        · rw [patient_retry chk p f s a _ _ _ _ h1]
          rfl
  | cons t ts ih =>
    cases hv with
    | @cons _ b' _ _ _ hx hv =>
      have hlt : b'.length < (ahead rem s).length := hp.consumes _ _ _ hx
      have hne : ahead rem s ≠ [] := by intro h0; rw [h0] at hlt; simp at hlt
      have ha := C51_retry hd chk (hp.built.streamed rfl) s h hne
        (C51_fits hp.built s.buffer (ahead rem s) hc hu)
      rw [hx] at ha
      obtain ⟨s', h1, h2, h3, h4⟩ := ha
      have h2 : ahead rem s' = b' := h2
      obtain ⟨r, hr, key⟩ := ih s' h3
        (h4 _ (LawfulBuffer.canHold_le (by rw [h2]; omega) hc)) (by rw [h2]; omega) (by rw [h2]; exact hv)
      refine ⟨r, hr, fun a => ?_⟩
      rw [patient_retry chk p f s a _ _ _ _ h1, List.foldlM_cons]
      show f a t >>= _ = _
      cases f a t with
      | ok a' => exact key a'
      | panic => rfl
      | ub => rfl
      | div => rfl

/-- So both give the same, up to the slice reported with an error. -/
theorem C88_same {rem : S → List I} {errs : S → Nat} (hd : Delivers S rem errs) {K : Nat} (chk chk' : Bool)
    {p : Parser Unit I T E} (hp : Reader K p) (f : A → T → Res A) (s : Source S B)
    (h : Ready rem s) (hc : LawfulBuffer.CanHold s.buffer ((ahead rem s).length + max 1 K))
    (hu : (ahead rem s).length + max 1 K ≤ usizeMax) (l : SliceStream I) (hl : ValidSlice l)
    (hsame : unread l = ahead rem s) :
    ∃ (xs : List T) (r r' : A → Except (StreamError I E) A), (∀ a, SameAnswer (r a) (r' a)) ∧
      ∀ a, patient chk p f s a () = (xs.foldlM f a >>= fun a' => .ok (r a', ())) ∧
        fromSlice chk' p f l a () = (xs.foldlM f a >>= fun a' => .ok (r' a', ())) := by
  obtain ⟨xs, rest, hv, hs⟩ := C88_values hp (ahead rem s)
  obtain ⟨r, h1, h2⟩ := C88_source hd chk hp f s h hc hu xs rest hv hs
  obtain ⟨r', h3, h4⟩ := C88_slice chk' hp f l hl (by rw [hsame]; exact hu) xs rest
    (by rw [hsame]; exact hv) hs
  refine ⟨xs, r, r', fun a => ?_, fun a => ⟨h2 a, h4 a⟩⟩
  have g := h1 a
  have g' := h3 a
  generalize r a = x at g
  generalize r' a = y at g'
  cases g with
  | done =>
    cases g' with
    | done => exact rfl
    | incomplete hne => exact absurd rfl hne
    | error hne => exact absurd rfl hne
  | incomplete hne hn =>
    cases g' with
    | done => exact absurd rfl hne
    | incomplete _ hn' => rw [hn] at hn'; cases hn'; exact rfl
    | error _ hn' => rw [hn] at hn'; cases hn'
  | error hne hn =>
    cases g' with
    | done => exact absurd rfl hne
    | incomplete _ hn' => rw [hn] at hn'; cases hn'
    | error _ hn' =>
      rw [hn] at hn'
      simp only [Res.ok.injEq, Prod.mk.injEq, ParseResult.error.injEq] at hn'
      exact hn'.1.2

end

/-- A new source with a `GrowingBuffer` without a limit, collecting the values. -/
theorem C88_growing {S I T E : Type} [DataSource S I] [HonestSource S I] {rem : S → List I}
    {errs : S → Nat} (hd : Delivers S rem errs) {K : Nat} (chk : Bool) {p : Parser Unit I T E} (hp : Reader K p)
    (src : S) (extra : Nat → Nat) (hl : (rem src).length + max 1 K ≤ 2 ^ 62) (xs : List T) :
    patient chk p (fun a t => .ok (a ++ [t]))
      (Source.withBuffer src (GrowingBuffer.withLimit extra 0 : GrowingBuffer I)) [] () = .ok (.ok xs, ()) ↔
    Values p (rem src) xs [] := by
  have hr := C51_new rem src (GrowingBuffer.withLimit extra 0 : GrowingBuffer I)
    (GrowingBuffer.withLimit_inv _ _) ⟨rfl, by decide⟩
  have ha : ahead rem (Source.withBuffer src (GrowingBuffer.withLimit extra 0 : GrowingBuffer I)) = rem src :=
    hr.2
  have fold : ∀ (ts a : List T), ts.foldlM (m := Res) (fun a t => .ok (a ++ [t])) a = .ok (a ++ ts) := by
    intro ts
    induction ts with
    | nil => intro a; simp [pure]
    | cons t ts ih => intro a; rw [List.foldlM_cons, Res.bind_ok, ih]; simp
  have main : ∀ ys rest, Values p (rem src) ys rest → Stops p rest →
      ∃ r : List T → Except (StreamError I E) (List T), (∀ a, Last p a rest (r a)) ∧
        patient chk p (fun a t => .ok (a ++ [t]))
          (Source.withBuffer src (GrowingBuffer.withLimit extra 0 : GrowingBuffer I)) [] () =
            .ok (r ys, ()) := by
    intro ys rest hv hs
    obtain ⟨r, h1, h2⟩ := C88_source hd chk hp (fun (a : List T) t => .ok (a ++ [t])) _ hr.1
      (by rw [ha]; exact ⟨rfl, hl⟩) (by rw [ha]; exact Nat.le_trans hl (by decide)) ys rest
      (by rw [ha]; exact hv) hs
    refine ⟨r, h1, ?_⟩
    rw [h2, fold, Res.bind_ok]
    rfl
  constructor
  · intro h
    obtain ⟨ys, rest, hv, hs⟩ := C88_values hp (rem src)
    obtain ⟨r, h1, h2⟩ := main ys rest hv hs
    rw [h] at h2
    have e : r ys = .ok xs := by
      simp only [Res.ok.injEq, Prod.mk.injEq, and_true] at h2
      exact h2.symm
    have := h1 ys
    rw [e] at this
    cases this
    exact hv
  · intro hv
    obtain ⟨r, h1, h2⟩ := main xs [] hv (.inl rfl)
    rw [h2]
    have := h1 xs
    generalize r xs = y at this
    cases this with
    | done => rfl
    | incomplete hne => exact absurd rfl hne
    | error hne => exact absurd rfl hne

/-- Parsers for records (C68) can be called again and again. -/
theorem C88_record {I T E : Type} {K : Nat} {p : Parser Unit I T E} (hp : RecordParser K p) : Reader K p :=
  ⟨hp.built, hp.returns, hp.consumes, hp.empty⟩

/-- The requests in a file of any length, without regard to I/O errors. -/
theorem C88_requests {S : Type} [DataSource S UInt8] [HonestSource S UInt8] {rem : S → List UInt8}
    {errs : S → Nat} (hd : Delivers S rem errs) (chk v : Bool) (src : S) (extra : Nat → Nat)
    (hl : (rem src).length + 5 ≤ 2 ^ 62) (xs : List (Http.Request × List Http.Header)) :
    patient chk (Http.request v) (fun a t => .ok (a ++ [t]))
      (Source.withBuffer src (GrowingBuffer.withLimit extra 0 : GrowingBuffer UInt8)) [] () =
        .ok (.ok xs, ()) ↔
    Sequence RequestText (rem src) xs := by
  rw [C88_growing hd chk (C88_record (request_record v)) src extra hl xs]
  constructor
  · intro h
    generalize rem src = b at h
    generalize hr : ([] : List UInt8) = rest at h
    induction h with
    | nil => rw [← hr]; exact .nil
    | cons h1 _ ih =>
      obtain ⟨t, ht, rfl⟩ := (C63_grammar v .endOfInput _ _ _).mp h1
      exact .cons ht (ih hr)
  · intro h
    generalize rem src = b at h
    induction h with
    | nil => exact .nil
    | cons h1 _ ih => exact .cons ((C63_grammar v .endOfInput _ _ _).mpr ⟨_, h1, rfl⟩) ih

/-! ### Example: runs

The last run ends with the input, so this is no parser for records in the sense of C68. -/

namespace PatientEx

/-- A run of ones, and the zeros after it. -/
def ones : Parser Unit Nat (List Nat) (Error Nat) :=
  Parser.bind id (Parsers.takeWhile1 true (· == 1)) fun l =>
  Parser.andThen id (Parsers.takeWhile (· == 0)) <|
  Parser.ret l

theorem reader : Reader 1 ones where
  built := .bind (.takeWhile1 _ _) fun _ => .andThen (.takeWhile _) (.ret _)
  returns i := by
    obtain ⟨r, _, h⟩ := C69_total (p := ones) (c := true)
      (.bind (a := true) (b := false) (.takeWhile1 _ _) fun _ =>
        .andThen (a := false) (b := false) (.takeWhile _) (.ret _))
      (.bind (.takeWhile1 _ _) fun _ => .andThen (.takeWhile _) (.ret _)) i ()
    exact ⟨r, h⟩
  consumes i i' t h := C69_consumes (p := ones) 
      (.bind (a := true) (b := false) (.takeWhile1 _ _) fun _ =>
        .andThen (a := false) (b := false) (.takeWhile _) (.ret _)) i i' t () () h
  empty := ⟨1, rfl⟩

/-- The stream `1 1 0 1 0 0 1 1`, in pieces, with I/O errors between them and at the end. -/
def src : Script Nat := ⟨[.data 1 [], .err ⟨1⟩, .data 1 [0, 1], .err ⟨2⟩, .err ⟨3⟩, .data 0 [0, 1, 1], .err ⟨4⟩]⟩

theorem values : Values ones src.rem [[1, 1], [1], [1, 1]] [] := .cons rfl (.cons rfl (.cons rfl .nil))

/-- All are found, -/
example (chk : Bool) (extra : Nat → Nat) : patient chk ones (fun a t => .ok (a ++ [t]))
    (Source.withBuffer src (GrowingBuffer.withLimit extra 0 : GrowingBuffer Nat)) [] () =
      .ok (.ok [[1, 1], [1], [1, 1]], ()) :=
  (C88_growing Script.delivers chk reader src extra (by decide) _).mpr values

/-- as in a slice. -/
example (chk : Bool) : fromSlice chk ones (fun a t => .ok (a ++ [t])) (SliceStream.new [1, 1, 0, 1, 0, 0, 1, 1])
    [] () = .ok (.ok [[1, 1], [1], [1, 1]], ()) := by
  obtain ⟨r, h1, h2⟩ := C88_slice chk reader (fun a t => .ok (a ++ [t]))
    (SliceStream.new [1, 1, 0, 1, 0, 0, 1, 1]) ⟨Nat.zero_le _, by decide⟩ (by decide) _ _ values (.inl rfl)
  rw [h2]
  have := h1 [[1, 1], [1], [1, 1]]
  show Res.ok (r [[1, 1], [1], [1, 1]], ()) = _
  generalize r [[1, 1], [1], [1, 1]] = y at this
  cases this with
  | done => rfl
  | incomplete hne => exact absurd rfl hne
  | error hne => exact absurd rfl hne

/-- After a 2 nothing more is found, and the answer is the error at the 2. -/
example (chk : Bool) : ∃ r, fromSlice chk ones (fun n _ => .ok (n + 1)) (SliceStream.new [1, 0, 2, 1]) 0 () =
    .ok (.error (.parseError r .unexpected), ()) := by
  obtain ⟨r, h1, h2⟩ := C88_slice chk reader (fun n _ => .ok (n + 1))
    (SliceStream.new [1, 0, 2, 1]) ⟨Nat.zero_le _, by decide⟩ (by decide) [[1]] [2, 1] (.cons rfl .nil)
    (.inr fun i t h => by cases h)
  rw [h2]
  have := h1 1
  show ∃ x, Res.ok (r 1, ()) = _
  generalize r 1 = y at this
  cases this with
  | incomplete _ hn => cases hn
  | @error _ x _ e _ hn =>
    have e : (Res.ok (ParseResult.error [2, 1] Error.unexpected, ()) :
      Res (ParseResult Nat (List Nat) (Error Nat) × Unit)) = _ := hn
    simp only [Res.ok.injEq, Prod.mk.injEq, ParseResult.error.injEq, and_true] at e
    rw [← e.2]
    exact ⟨_, rfl⟩

end PatientEx

end Chomp.Props
