import Verif.Model.Http
import Verif.Spec.Ascii

/-
The language of the HTTP example, as a grammar which does not mention parsers. Definitions only.
-/

namespace Chomp.Spec.Http

open Chomp.Http (Request Header)

/-- Characters of methods and header names: visible ASCII without the separators. (DEL is among
them.) -/
def Token (c : UInt8) : Prop := 33 ≤ c ∧ c ≤ 127 ∧ c ∉ bytes "()<>@,;:\\\"/[]?={}"

/-- Digits and dots. -/
def Version (c : UInt8) : Prop := c ∈ bytes "0123456789."

/-- One or more bytes of a kind. -/
def Run (kind : UInt8 → Prop) (b : List UInt8) : Prop := b ≠ [] ∧ ∀ c ∈ b, kind c

/-- The end of a line: CR LF or LF. -/
def Eol (b : List UInt8) : Prop := b = bytes "\r\n" ∨ b = bytes "\n"

/-- Several texts one after the other. -/
inductive Sequence (Text : List UInt8 → α → Prop) : List UInt8 → List α → Prop
  | nil : Sequence Text [] []
  | cons {b x bs xs} : Text b x → Sequence Text bs xs → Sequence Text (b ++ bs) (x :: xs)

/-- The text of one line of the value of a header. -/
inductive LineText : List UInt8 → List UInt8 → Prop
  | mk {blank line eol : List UInt8} : Run (fun c => c = byte ' ' ∨ c = byte '\t') blank →
      (∀ c ∈ line, c ≠ byte '\r' ∧ c ≠ byte '\n') →
      (∀ c r, line = c :: r → c ≠ byte ' ' ∧ c ≠ byte '\t') → Eol eol →
      LineText (blank ++ line ++ eol) line

/-- The text of a header. -/
inductive HeaderText : List UInt8 → Header → Prop
  | mk {name lines : List UInt8} {value : List (List UInt8)} : Run Token name →
      Sequence LineText lines value → value ≠ [] →
      HeaderText (name ++ bytes ":" ++ lines) ⟨name, value⟩

/-- The text of a request. -/
inductive RequestText : List UInt8 → Request × List Header → Prop
  | mk {method blank uri blank' version eol hs eol' : List UInt8} {headers : List Header} :
      Run Token method → Run (· = byte ' ') blank → Run (· ≠ byte ' ') uri →
      Run (· = byte ' ') blank' → Run Version version → Eol eol →
      Sequence HeaderText hs headers → Eol eol' →
      RequestText (method ++ blank ++ uri ++ blank' ++ bytes "HTTP/" ++ version ++ eol ++ hs ++ eol')
        (⟨method, uri, version⟩, headers)

/-! ### Printing -/

/-- A request which can be written down. -/
structure WellFormed (x : Request × List Header) : Prop where
  method : Run Token x.1.method
  uri : Run (· ≠ byte ' ') x.1.uri
  version : Run Version x.1.version
  names : ∀ h ∈ x.2, Run Token h.name
  values : ∀ h ∈ x.2, h.value ≠ []
  /-- no end of line within a line -/
  lines : ∀ h ∈ x.2, ∀ l ∈ h.value, ∀ c ∈ l, c ≠ byte '\r' ∧ c ≠ byte '\n'
  /-- lines do not start with a blank -/
  starts : ∀ h ∈ x.2, ∀ l ∈ h.value, ∀ c r, l = c :: r → c ≠ byte ' ' ∧ c ≠ byte '\t'

/-- The canonical text of a header. -/
def printHeader (h : Header) : List UInt8 :=
  h.name ++ bytes ":" ++ h.value.flatMap (fun l => bytes " " ++ l ++ bytes "\r\n")

/-- The canonical text of a request. -/
def print (x : Request × List Header) : List UInt8 :=
  x.1.method ++ bytes " " ++ x.1.uri ++ bytes " " ++ bytes "HTTP/" ++ x.1.version ++ bytes "\r\n" ++
    x.2.flatMap printHeader ++ bytes "\r\n"

/-- The texts of requests up to a given length. -/
def ShortRequest (size : Nat) (b : List UInt8) (x : Request × List Header) : Prop :=
  RequestText b x ∧ b.length ≤ size

end Chomp.Spec.Http
