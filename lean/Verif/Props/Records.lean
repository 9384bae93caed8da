import Verif.Lemmas.Records
import Verif.Lemmas.Http
import Verif.Props.Productive

/-
C68: the program which reads one record after the other (README, examples/http_parser.rs) reads the
records of the stream. The program, `records`, and what it is compared with, `Records`, are in
Verif/Spec/Records.lean.
-/

namespace Chomp.Props

open Spec

variable {S I : Type} [DataSource S I] [HonestSource S I]

omit [DataSource S I] [HonestSource S I] in
theorem records_new {rem : S → List I} {errs : S → Nat} {size : Nat} {p : Parser Unit I T E}
    {b : FixedSizeBuffer I} (hb : FixedSizeBuffer.withSize size = .ok b) (src : S)
    (hq : errs src = 0) :
    Running rem errs size p (Source.withBuffer src b) ∧ ahead rem (Source.withBuffer src b) = rem src := by
  obtain ⟨h1, h2, h3⟩ := withSize_inv hb
  have hv : held (Source.withBuffer src b) = [] := h2
  exact ⟨⟨h1, rfl, h3, nofun, hq, fun _ => .inl ⟨rfl, hv⟩⟩, by rw [ahead, hv]; rfl⟩

/-- If the stream consists of records which fit the buffer, the program handles each of them, in
order, and stops without an error. It does not matter how the source splits the stream. -/
theorem C68_records {rem : S → List I} {errs : S → Nat} (hd : Delivers S rem errs) (chk : Bool)
    {size K : Nat}
    {p : Parser Unit I T E} (hp : RecordParser K p) (hK : max 1 K ≤ size) (f : A → T → Res A) (a : A)
    (src : S) (b : FixedSizeBuffer I) (hb : FixedSizeBuffer.withSize size = .ok b)
    (hq : errs src = 0) (hl : (rem src).length + max 1 K ≤ usizeMax) (xs : List T) (h : Records p size (rem src) xs []) :
    records chk p f (Source.withBuffer src b) a () = xs.foldlM f a >>= fun a' => .ok (.ok a', ()) := by
  obtain ⟨hr, ha⟩ := records_new (rem := rem) (p := p) hb src hq
  obtain ⟨ys, rest, h1, h2, h3⟩ := records_cases hd chk hp hK f _ hr (by rw [ha]; exact hl) a
  rw [ha] at h1
  have hn : ∀ t r, ¬ First p size ([] : List I) t r := by
    intro t r hf
    exact absurd (hp.consumes _ _ _ hf.parses) (Nat.not_lt_zero _)
  obtain ⟨rfl, rfl⟩ := h.unique h1 hn h2
  rcases h3 with ⟨_, h3⟩ | ⟨h3, _⟩
  · exact h3
  · exact absurd rfl h3

/-- If it does not, the program handles the records in front of the first place where there is none
(or one which does not fit), and reports an error there. -/
theorem C68_rejects {rem : S → List I} {errs : S → Nat} (hd : Delivers S rem errs) (chk : Bool)
    {size K : Nat}
    {p : Parser Unit I T E} (hp : RecordParser K p) (hK : max 1 K ≤ size) (f : A → T → Res A) (a : A)
    (src : S) (b : FixedSizeBuffer I) (hb : FixedSizeBuffer.withSize size = .ok b)
    (hq : errs src = 0) (hl : (rem src).length + max 1 K ≤ usizeMax) (xs : List T) (rest : List I)
    (h : Records p size (rem src) xs rest) (hne : rest ≠ []) (hn : ∀ t r, ¬ First p size rest t r) :
    ∃ e, e ≠ .endOfInput ∧ e ≠ .retry ∧
      records chk p f (Source.withBuffer src b) a () = xs.foldlM f a >>= fun _ => .ok (.error e, ()) := by
  obtain ⟨hr, ha⟩ := records_new (rem := rem) (p := p) hb src hq
  obtain ⟨ys, rest', h1, h2, h3⟩ := records_cases hd chk hp hK f _ hr (by rw [ha]; exact hl) a
  rw [ha] at h1
  obtain ⟨rfl, rfl⟩ := h.unique h1 hn h2
  rcases h3 with ⟨h3, _⟩ | ⟨_, h3⟩
  · exact absurd h3 hne
  · exact h3

/-- One of the two is the case, so the program returns if handling a record does. -/
theorem C68_returns {rem : S → List I} {errs : S → Nat} (hd : Delivers S rem errs) (chk : Bool)
    {size K : Nat}
    {p : Parser Unit I T E} (hp : RecordParser K p) (hK : max 1 K ≤ size) (f : A → T → Res A) (a : A)
    (src : S) (b : FixedSizeBuffer I) (hb : FixedSizeBuffer.withSize size = .ok b)
    (hq : errs src = 0) (hl : (rem src).length + max 1 K ≤ usizeMax) (hf : ∀ a t, f a t ≠ .div) :
    records chk p f (Source.withBuffer src b) a () ≠ .div := by
  obtain ⟨hr, ha⟩ := records_new (rem := rem) (p := p) hb src hq
  obtain ⟨ys, rest', h1, h2, h3⟩ := records_cases hd chk hp hK f _ hr (by rw [ha]; exact hl) a
  have fold : ∀ (xs : List T) a, xs.foldlM f a ≠ Res.div := by
    intro xs
    induction xs with
    | nil => intro a; exact nofun
    | cons x xs ih =>
      intro a
      rw [List.foldlM_cons]
      cases h : f a x with
      | ok y => exact ih y
      | div => exact absurd h (hf a x)
      | _ => exact nofun
  rcases h3 with ⟨_, h3⟩ | ⟨_, e, _, _, h3⟩ <;>
  · rw [h3]
    cases h : ys.foldlM f a with
    | div => exact absurd h (fold ys a)
    | _ => exact nofun

/-- Collecting the records: the answer is the list of the records of the stream, and there is an
answer exactly if the stream consists of records which fit. -/
theorem C68_collect {rem : S → List I} {errs : S → Nat} (hd : Delivers S rem errs) (chk : Bool)
    {size K : Nat}
    {p : Parser Unit I T E} (hp : RecordParser K p) (hK : max 1 K ≤ size)
    (src : S) (b : FixedSizeBuffer I) (hb : FixedSizeBuffer.withSize size = .ok b)
    (hq : errs src = 0) (hl : (rem src).length + max 1 K ≤ usizeMax) (xs : List T) :
    records chk p (fun a t => .ok (a ++ [t])) (Source.withBuffer src b) [] () = .ok (.ok xs, ()) ↔
      Records p size (rem src) xs [] := by
  have fold : ∀ (xs a : List T), xs.foldlM (fun a t => Res.ok (a ++ [t])) a = .ok (a ++ xs) := by
    intro xs
    induction xs with
    | nil => intro a; simp
    | cons x xs ih =>
      intro a
      rw [List.foldlM_cons, Res.bind_ok, ih, List.append_assoc]
      rfl
  constructor
  · intro h
    obtain ⟨hr, ha⟩ := records_new (rem := rem) (p := p) hb src hq
    obtain ⟨ys, rest, h1, h2, h3⟩ := records_cases hd chk hp hK (fun a t => .ok (a ++ [t])) _ hr
      (by rw [ha]; exact hl) []
    rw [ha] at h1
    rcases h3 with ⟨rfl, h3⟩ | ⟨_, e, _, _, h3⟩
    · rw [h3, fold] at h
      simp only [Res.bind_ok, List.nil_append, Res.ok.injEq, Prod.mk.injEq, Except.ok.injEq,
        and_true] at h
      rw [← h]
      exact h1
    · rw [h3, fold] at h
      cases h
  · intro h
    rw [C68_records hd chk hp hK _ _ src b hb hq hl xs h, fold]
    rfl

/-- Two sources with the same content, whatever the chunks: the same records are handled, and either
both programs succeed, or both report an error. -/
theorem C68_chunking {S' : Type} [DataSource S' I] [HonestSource S' I] {rem : S → List I}
    {errs : S → Nat} (hd : Delivers S rem errs) {rem' : S' → List I} {errs' : S' → Nat} (hd' : Delivers S' rem' errs')
    (chk chk' : Bool) {size K : Nat} {p : Parser Unit I T E} (hp : RecordParser K p) (hK : max 1 K ≤ size)
    (f : A → T → Res A) (a : A) (src : S) (src' : S') (b b' : FixedSizeBuffer I)
    (hb : FixedSizeBuffer.withSize size = .ok b) (hb' : FixedSizeBuffer.withSize size = .ok b')
    (hq : errs src = 0) (hl : (rem src).length + max 1 K ≤ usizeMax) (hq' : errs' src' = 0)
    (hsame : rem src = rem' src') :
    ∃ xs : List T,
      (records chk p f (Source.withBuffer src b) a () = xs.foldlM f a >>= (fun a' => .ok (.ok a', ())) ∧
       records chk' p f (Source.withBuffer src' b') a () =
        xs.foldlM f a >>= (fun a' => .ok (.ok a', ()))) ∨
      ∃ e e', records chk p f (Source.withBuffer src b) a () =
          xs.foldlM f a >>= (fun _ => .ok (.error e, ())) ∧
        records chk' p f (Source.withBuffer src' b') a () =
          xs.foldlM f a >>= (fun _ => .ok (.error e', ())) := by
  obtain ⟨hr, ha⟩ := records_new (rem := rem) (p := p) hb src hq
  obtain ⟨ys, rest, h1, h2, h3⟩ := records_cases hd chk hp hK f _ hr (by rw [ha]; exact hl) a
  rw [ha] at h1
  refine ⟨ys, ?_⟩
  rcases h3 with ⟨rfl, h3⟩ | ⟨hne, e, _, _, h3⟩
  · exact .inl ⟨h3, C68_records hd' chk' hp hK f a src' b' hb' hq' (hsame ▸ hl) ys (hsame ▸ h1)⟩
  · obtain ⟨e', _, _, h4⟩ := C68_rejects hd' chk' hp hK f a src' b' hb' hq' (hsame ▸ hl) ys rest
      (hsame ▸ h1) hne h2
    exact .inr ⟨e, e', h3, h4⟩

omit [DataSource S I] [HonestSource S I] in
/-- Which records fit: those which are not longer than the buffer, if records can be recognised
without looking at what follows them. -/
theorem C68_fits {K size : Nat} {p : Parser Unit I T E} (hp : RecordParser K p) (text rest : List I)
    (t : T) (h : p ⟨.default, text⟩ () = .ok (.data ⟨.default, []⟩ t, ())) :
    First p size (text ++ rest) t rest ↔ text.length ≤ size := by
  have hs : Built streaming p := hp.built.streamed rfl
  have hst := C07_stable hs
  constructor
  · intro hf
    apply Decidable.byContradiction
    intro hlt
    have hx : text = text.take size ++ text.drop size := (List.take_append_drop size text).symm
    have hlen : (text.take size).length = size := by simp; omega
    have hpos : 0 < (text.drop size).length := by simp; omega
    obtain ⟨r, hr⟩ := hp.returns ⟨.default, text.take size⟩
    cases r with
    | data i v =>
      have := ((hst (text.take size) (text.drop size) .default () ()).1 i v hr).2
      rw [← hx, h] at this
      cases i with
      | mk m b =>
        simp only [Res.ok.injEq, Prod.mk.injEq, ParseResult.data.injEq, Input.mk.injEq, true_and,
          and_true] at this
        have := congrArg List.length this.1
        simp only [List.length_append, List.length_nil] at this
        omega
    | error y e =>
      have := (hst (text.take size) (text.drop size) .default () ()).2 y e hr
      rw [← hx, h] at this
      cases this
    | incomplete n =>
      have h1 := hf.fits (text.take size) (text.drop size ++ rest) n
        (by rw [← List.append_assoc, ← hx]) hr
      have h2 := C08_positive hs _ _ _ _ hr
      omega
  · intro hle
    refine ⟨?_, ?_⟩
    · have := ((hst text rest .endOfInput () ()).1 _ _ h).2
      exact this
    · intro x y n hxy hn
      rcases List.append_eq_append_iff.mp hxy with ⟨z, hz, _⟩ | ⟨z, hz, _⟩
      · exfalso
        have := ((hst text z .default () ()).1 _ _ h).2
        rw [← hz, hn] at this
        cases this
      · apply Decidable.byContradiction
        intro hlt
        obtain ⟨n', h1, _⟩ := C08_truthful hs x z () () n hn (by
          have := congrArg List.length hz
          simp only [List.length_append] at this
          omega)
        rw [← hz, h] at h1
        cases h1

/-! ### Example: lines -/

namespace RecordsEx

/-- A line: something, then a line break. -/
def line : Parser Unit UInt8 (List UInt8) (Error UInt8) :=
  Parser.bind id (Parsers.takeWhile1 true (fun c => c != 10)) fun l =>
  Parser.andThen id (Parsers.token true 10) <|
  Parser.ret l

theorem line_data {m : Mode} {b x : List UInt8} {i : Input UInt8} :
    line ⟨m, b⟩ () = .ok (.data i x, ()) ↔
      i.mode = m ∧ x ≠ [] ∧ (∀ c ∈ x, c ≠ 10) ∧ b = x ++ 10 :: i.buf := by
  unfold line
  constructor
  · intro h
    obtain ⟨⟨m1, b1⟩, l, w1, h1, h⟩ := Http.bind_data.mp h
    obtain ⟨i2, c, w2, h2, h⟩ := Http.andThen_data.mp h
    obtain ⟨rfl, rfl, rfl⟩ := Http.ret_data.mp h
    obtain ⟨_, rfl, rfl, h3, h4, _⟩ := Http.takeWhile1_data.mp h1
    obtain ⟨rfl, _, h5, h6⟩ := Http.token_data.mp h2
    dsimp only at h6 h4
    refine ⟨h5, h3, fun c hc => by simpa using h4.1 c hc, by rw [h6]⟩
  · rintro ⟨rfl, h1, h2, rfl⟩
    refine Http.bind_data.mpr ⟨⟨i.mode, 10 :: i.buf⟩, x, (), ?_, ?_⟩
    · refine Http.takeWhile1_data.mpr ⟨rfl, rfl, rfl, h1, ⟨fun c hc => by simpa using h2 c hc, ?_⟩, by simp⟩
      intro c r e
      cases e
      rfl
    · exact Http.andThen_data.mpr ⟨i, 10, (), Http.token_data.mpr ⟨rfl, rfl, rfl, rfl⟩, rfl⟩

theorem line_record : RecordParser 1 line where
  built := .bind (.takeWhile1 _ _) fun _ => .andThen (.token _ _) (.ret _)
  returns i := by
    obtain ⟨r, _, h⟩ := C69_total (p := line) (c := true)
      (.bind (a := true) (b := true) (.takeWhile1 _ _) fun _ =>
        .andThen (a := true) (b := false) (.token _ _) (.ret _))
      (.bind (.takeWhile1 _ _) fun _ => .andThen (.token _ _) (.ret _)) i ()
    exact ⟨r, h⟩
  consumes i i' t h := by
    obtain ⟨_, _, _, h⟩ := line_data.mp h
    rw [h]
    simp
    omega
  empty := ⟨1, rfl⟩
  delimited b r t h := by
    obtain ⟨_, h1, h2, h3⟩ := line_data.mp h
    exact line_data.mpr ⟨rfl, h1, h2, h3⟩

/-- A short line, alone. -/
theorem line_text (l : List UInt8) (h : l ≠ []) (hl : ∀ c ∈ l, c ≠ 10) :
    line ⟨.default, l ++ [10]⟩ () = .ok (.data ⟨.default, []⟩ l, ()) :=
  line_data.mpr ⟨rfl, h, hl, rfl⟩

theorem line_first (size : Nat) (l rest : List UInt8) (h : l ≠ []) (hl : ∀ c ∈ l, c ≠ 10) :
    First line size (l ++ [10] ++ rest) l rest ↔ l.length < size := by
  rw [C68_fits line_record _ rest l (line_text l h hl)]
  simp
  omega

/-- Two lines in three pieces. -/
def file : Script UInt8 := ⟨[.data 65 [], .data 66 [10, 67], .data 10 []]⟩

theorem file_rem : file.rem = [65, 66, 10, 67, 10] := rfl

theorem file_records : Records line 4 file.rem [[65, 66], [67]] [] :=
  .cons (t := [65, 66]) (b' := [67, 10])
    ((line_first 4 [65, 66] [67, 10] (by simp) (by decide)).mpr (by decide)) <|
  .cons (t := [67]) (b' := []) ((line_first 4 [67] [] (by simp) (by decide)).mpr (by decide)) .nil

/-- They are found, whether or not the source hands them out piece by piece. -/
example (b : FixedSizeBuffer UInt8) (hb : FixedSizeBuffer.withSize 4 = .ok b) :
    records true line (fun a t => .ok (a ++ [t])) (Source.withBuffer file b) [] () =
      .ok (.ok [[65, 66], [67]], ()) :=
  (C68_collect Script.delivers true line_record (by decide) file b hb rfl (by decide) _).mpr file_records

/-- With a buffer for two items the first line is refused. -/
example (b : FixedSizeBuffer UInt8) (hb : FixedSizeBuffer.withSize 2 = .ok b) :
    ∃ e, records true line (fun a t => .ok (a ++ [t])) (Source.withBuffer file b) [] () =
      .ok (.error e, ()) := by
  obtain ⟨e, _, _, h⟩ := C68_rejects Script.delivers true line_record (by decide)
    (fun a t => .ok (a ++ [t])) [] file b hb rfl (by decide) [] _ .nil (by simp [file_rem]) (by
      intro t r h
      have hp := h.parses
      rw [file_rem] at hp
      have e : line ⟨.endOfInput, [65, 66, 10, 67, 10]⟩ () =
        .ok (.data ⟨.endOfInput, [67, 10]⟩ [65, 66], ()) :=
        line_data.mpr ⟨rfl, by simp, by decide, rfl⟩
      rw [e] at hp
      cases hp
      exact absurd ((line_first 2 [65, 66] [67, 10] (by simp) (by decide)).mp h) (by decide))
  exact ⟨e, h⟩

example (chk : Bool) (src : Script UInt8) (b : FixedSizeBuffer UInt8)
    (hb : FixedSizeBuffer.withSize 4 = .ok b) (hq : src.errs = 0)
    (hl : src.rem.length + 1 ≤ usizeMax) :
    records chk line (fun n _ => .ok (n + 1)) (Source.withBuffer src b) 0 () ≠ .div :=
  C68_returns Script.delivers chk line_record (by decide) _ 0 src b hb hq hl (by simp)

end RecordsEx

end Chomp.Props
