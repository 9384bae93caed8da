import Verif.Spec.Built

namespace Chomp.Spec

/-- Allowing more keeps what has been assembled. -/
theorem Built.mono {a b : Allow} (hc : b.chunkDependent = false → a.chunkDependent = false)
    (hm : b.mayPanic = false → a.mayPanic = false)
    (hk : ∀ n, a.Permits n → b.Permits n) {σ I T E : Type} {p : Parser σ I T E}
    (h : Built a p) : Built b p := by
  have hc' : a.chunkDependent = true → b.chunkDependent = true := by
    intro h
    cases hb : b.chunkDependent with
    | true => rfl
    | false => rw [hc hb] at h; cases h
  induction h with
  | ret t => exact .ret t
  | err e => exact .err e
  | fromResult r => exact .fromResult r
  | incomplete n h h' => exact .incomplete n h (hk n h')
  | bind _ _ ihp ihf => exact .bind ihp ihf
  | andThen _ _ ihp ihq => exact .andThen ihp ihq
  | map f _ ih => exact .map f ih
  | mapErr f _ ih => exact .mapErr f ih
  | inspect f hf _ ih => exact .inspect f (fun h => hf (hm h)) ih
  | effect hg _ ih => exact .effect (fun h => hg (hm h)) ih
  | any => exact .any
  | satisfy v f => exact .satisfy v f
  | satisfyWith v f p => exact .satisfyWith v f p
  | token v t => exact .token v t
  | notToken v t => exact .notToken v t
  | peek h => exact .peek (hc' h)
  | peekNext => exact .peekNext
  | take n h => exact .take n (hk n h)
  | takeWhile f => exact .takeWhile f
  | takeWhile1 v f => exact .takeWhile1 v f
  | takeTill f => exact .takeTill f
  | scan s f => exact .scan s f
  | runScanner s f => exact .runScanner s f
  | takeRemainder h => exact .takeRemainder (hc' h)
  | string v s h => exact .string v s (hk _ h)
  | eof v h => exact .eof v (hc' h)
  | mapM f hf _ ih => exact .mapM f (fun h => hf (hm h)) ih
  | mapErrM f hf _ ih => exact .mapErrM f (fun h => hf (hm h)) ih
  | satisfyM v f hf => exact .satisfyM v f (fun h => hf (hm h))
  | satisfyWithM v f p hf => exact .satisfyWithM v f p (fun h => hf (hm h))
  | tokenM eq v t hf => exact .tokenM eq v t (fun h => hf (hm h))
  | notTokenM ne v t hf => exact .notTokenM ne v t (fun h => hf (hm h))
  | takeWhileM f hf => exact .takeWhileM f (fun h => hf (hm h))
  | takeWhile1M v f hf => exact .takeWhile1M v f (fun h => hf (hm h))
  | takeTillM f hf => exact .takeTillM f (fun h => hf (hm h))
  | scanM s f hf => exact .scanM s f (fun h => hf (hm h))
  | runScannerM s f hf => exact .runScannerM s f (fun h => hf (hm h))
  | stringM ne v s h hf => exact .stringM ne v s (hk _ h) (fun h => hf (hm h))
  | count n c _ ih => exact .count n c ih
  | option t _ ih => exact .option t ih
  | or _ _ ihp ihq => exact .or ihp ihq
  | many c _ ih => exact .many c ih
  | many1 c _ ih => exact .many1 c ih
  | sepBy conv c _ _ ihp ihs => exact .sepBy conv c ihp ihs
  | sepBy1 conv c _ _ ihp ihs => exact .sepBy1 conv c ihp ihs
  | manyTill c h _ _ ihp ihe => exact .manyTill c (fun h' => h (hc h')) ihp ihe
  | skipMany _ ih => exact .skipMany ih
  | skipMany1 _ ih => exact .skipMany1 ih
  | matchedBy _ ih => exact .matchedBy ih
  | lookAhead _ ih => exact .lookAhead ih
  | boundedMany r c hr _ ih => exact .boundedMany r c (fun h => hr (hm h)) ih
  | boundedSkipMany r hr _ ih => exact .boundedSkipMany r (fun h => hr (hm h)) ih
  | boundedManyTill r c h hr _ _ ihp ihe =>
    exact .boundedManyTill r c (hc' h) (fun h => hr (hm h)) ihp ihe
  | skipWhitespace => exact .skipWhitespace
  | digit v => exact .digit v
  | decimal v N hN => exact .decimal v N (fun h => hN (hm h))
  | signed v N hN _ ih => exact .signed v N (fun h => hN (hm h)) ih
  | endless => exact .endless
  | unfolds q hq _ ih => exact .unfolds q hq ih

theorem Built.anything {a : Allow} {σ I T E : Type} {p : Parser σ I T E} (h : Built a p) :
    Built everything p := 
  h.mono (fun h => by cases h) (fun h => by cases h) (fun _ _ _ h => by cases h)

theorem Built.streamed {a : Allow} (ha : a.chunkDependent = false) {σ I T E : Type}
    {p : Parser σ I T E} (h : Built a p) : Built streaming p :=
  h.mono (fun _ => ha) (fun h => by cases h) (fun _ _ _ h => by cases h)

end Chomp.Spec
