import Verif.Proofs.FastEval
import Verif.Model.Mime

/-!
# The tests of the repository, run on the model

Made by `tools/gen_tests.py` from the test files of /repo.  These are tests of the model (of its agreement with what the authors of the program expect),
not proofs of properties.  The results are computed by the kernel.
-/

namespace Rfc5322.Tests

/-- A string given by its bytes. -/
def bytes (l : List Nat) : Bytes := l.map UInt8.ofNat

/-- The environment of the tests: no `CharsetReader`, the year 2024. -/
def env : Env := goEnv none 2024

/-- No error, and these addresses. -/
def Gives (input : Bytes) (l : List (List Nat × List Nat)) : Prop :=
  ∀ P : Predictor, parseAddressList P env input = .ok (goSlice (l.map fun x => ⟨bytes x.1, bytes x.2⟩), none)

/-- An error. -/
def Fails (input : Bytes) : Prop := ∀ P : Predictor, parseAddressList P env input = .ok (none, some .syntaxError)

/-- No error. -/
def Accepted (input : Bytes) : Prop := ∀ P : Predictor, ∃ l, parseAddressList P env input = .ok (l, none)

/-- No error, this time (in seconds since 1970) with this offset. -/
def Date (input : Bytes) (unix offset : Int) : Prop := ∀ P : Predictor, ∃ name, parseDateTime P env input = .ok (⟨unix, ⟨name, offset⟩⟩, none)

/-- An error. -/
def DateFails (input : Bytes) : Prop := ∀ P : Predictor, parseDateTime P env input = .ok (zeroTime, some .syntaxError)

theorem gives {input : Bytes} {l} (h : fastAddresses env input = .ok (goSlice (l.map fun (x : List Nat × List Nat) => ⟨bytes x.1, bytes x.2⟩), none)) : Gives input l :=
  fun P => (evalAddresses_eq P env input).trans ((fastAddresses_eq env input).trans h)

theorem fails {input : Bytes} (h : fastAddresses env input = .ok (none, some .syntaxError)) : Fails input := fun P => (evalAddresses_eq P env input).trans ((fastAddresses_eq env input).trans h)

/-- Computable form of `Accepted`. -/
def accepts (input : Bytes) : Bool := match fastAddresses env input with
  | .ok (_, none) => true
  | _ => false

theorem accepted {input : Bytes} (h : accepts input = true) : Accepted input := by
  intro P
  rw [evalAddresses_eq, fastAddresses_eq]
  unfold accepts at h
  split at h
  · exact ⟨_, by assumption⟩
  · cases h

/-- Computable form of `Date`. -/
def dates (input : Bytes) (unix offset : Int) : Bool := match fastDate env input with
  | .ok (⟨u, ⟨_, o⟩⟩, none) => u == unix && o == offset
  | _ => false

theorem date {input : Bytes} {unix offset : Int} (h : dates input unix offset = true) : Date input unix offset := by
  intro P
  rw [evalDate_eq, fastDate_eq]
  unfold dates at h
  split at h
  · rename_i e
    simp at h
    obtain ⟨rfl, rfl⟩ := h
    exact ⟨_, e⟩
  · cases h

theorem dateFails {input : Bytes} (h : fastDate env input = .ok (zeroTime, some .syntaxError)) : DateFails input := fun P => (evalDate_eq P env input).trans ((fastDate_eq env input).trans h)

/-! ## TestParseSingleAddress (/repo/parse_address_list_test.go) -/

-- line 20: user@example.com
example : Gives (bytes [117, 115, 101, 114, 64, 101, 120, 97, 109, 112, 108, 101, 46, 99, 111, 109]) [([], [117, 115, 101, 114, 64, 101, 120, 97, 109, 112, 108, 101, 46, 99, 111, 109])] := gives (by decide +kernel)
-- line 26: John Doe <jdoe@machine.example>
example : Gives (bytes [74, 111, 104, 110, 32, 68, 111, 101, 32, 60, 106, 100, 111, 101, 64, 109, 97, 99, 104, 105, 110, 101, 46, 101, 120, 97, 109, 112, 108, 101, 62]) [([74, 111, 104, 110, 32, 68, 111, 101], [106, 100, 111, 101, 64, 109, 97, 99, 104, 105, 110, 101, 46, 101, 120, 97, 109, 112, 108, 101])] := gives (by decide +kernel)
-- line 33: Mary Smith <mary@example.net>
example : Gives (bytes [77, 97, 114, 121, 32, 83, 109, 105, 116, 104, 32, 60, 109, 97, 114, 121, 64, 101, 120, 97, 109, 112, 108, 101, 46, 110, 101, 116, 62]) [([77, 97, 114, 121, 32, 83, 109, 105, 116, 104], [109, 97, 114, 121, 64, 101, 120, 97, 109, 112, 108, 101, 46, 110, 101, 116])] := gives (by decide +kernel)
-- line 40: "Joe Q. Public" <john.q.public@example.com>
example : Gives (bytes [34, 74, 111, 101, 32, 81, 46, 32, 80, 117, 98, 108, 105, 99, 34, 32, 60, 106, 111, 104, 110, 46, 113, 46, 112, 117, 98, 108, 105, 99, 64, 101, 120, 97, 109, 112, 108, 101, 46, 99, 111, 109, 62]) [([74, 111, 101, 32, 81, 46, 32, 80, 117, 98, 108, 105, 99], [106, 111, 104, 110, 46, 113, 46, 112, 117, 98, 108, 105, 99, 64, 101, 120, 97, 109, 112, 108, 101, 46, 99, 111, 109])] := gives (by decide +kernel)
-- line 47: Mary Smith <mary@x.test>
example : Gives (bytes [77, 97, 114, 121, 32, 83, 109, 105, 116, 104, 32, 60, 109, 97, 114, 121, 64, 120, 46, 116, 101, 115, 116, 62]) [([77, 97, 114, 121, 32, 83, 109, 105, 116, 104], [109, 97, 114, 121, 64, 120, 46, 116, 101, 115, 116])] := gives (by decide +kernel)
-- line 54: jdoe@example.org
example : Gives (bytes [106, 100, 111, 101, 64, 101, 120, 97, 109, 112, 108, 101, 46, 111, 114, 103]) [([], [106, 100, 111, 101, 64, 101, 120, 97, 109, 112, 108, 101, 46, 111, 114, 103])] := gives (by decide +kernel)
-- line 60: Who? <one@y.test>
example : Gives (bytes [87, 104, 111, 63, 32, 60, 111, 110, 101, 64, 121, 46, 116, 101, 115, 116, 62]) [([87, 104, 111, 63], [111, 110, 101, 64, 121, 46, 116, 101, 115, 116])] := gives (by decide +kernel)
-- line 67: <boss@nil.test>
example : Gives (bytes [60, 98, 111, 115, 115, 64, 110, 105, 108, 46, 116, 101, 115, 116, 62]) [([], [98, 111, 115, 115, 64, 110, 105, 108, 46, 116, 101, 115, 116])] := gives (by decide +kernel)
-- line 73: "Giant; \"Big\" Box" <sysservices@example.net>
example : Gives (bytes [34, 71, 105, 97, 110, 116, 59, 32, 92, 34, 66, 105, 103, 92, 34, 32, 66, 111, 120, 34, 32, 60, 115, 121, 115, 115, 101, 114, 118, 105, 99, 101, 115, 64, 101, 120, 97, 109, 112, 108, 101, 46, 110, 101, 116, 62]) [([71, 105, 97, 110, 116, 59, 32, 34, 66, 105, 103, 34, 32, 66, 111, 120], [115, 121, 115, 115, 101, 114, 118, 105, 99, 101, 115, 64, 101, 120, 97, 109, 112, 108, 101, 46, 110, 101, 116])] := gives (by decide +kernel)
-- line 80: Pete <pete@silly.example>
example : Gives (bytes [80, 101, 116, 101, 32, 60, 112, 101, 116, 101, 64, 115, 105, 108, 108, 121, 46, 101, 120, 97, 109, 112, 108, 101, 62]) [([80, 101, 116, 101], [112, 101, 116, 101, 64, 115, 105, 108, 108, 121, 46, 101, 120, 97, 109, 112, 108, 101])] := gives (by decide +kernel)
-- line 87: "Mary Smith: Personal Account" <smith@home.example>
example : Gives (bytes [34, 77, 97, 114, 121, 32, 83, 109, 105, 116, 104, 58, 32, 80, 101, 114, 115, 111, 110, 97, 108, 32, 65, 99, 99, 111, 117, 110, 116, 34, 32, 60, 115, 109, 105, 116, 104, 64, 104, 111, 109, 101, 46, 101, 120, 97, 109, 112, 108, 101, 62]) [([77, 97, 114, 121, 32, 83, 109, 105, 116, 104, 58, 32, 80, 101, 114, 115, 111, 110, 97, 108, 32, 65, 99, 99, 111, 117, 110, 116], [115, 109, 105, 116, 104, 64, 104, 111, 109, 101, 46, 101, 120, 97, 109, 112, 108, 101])] := gives (by decide +kernel)
-- line 94: Pete(A nice \) chap) <pete(his account)@silly.test(his host)>
example : Gives (bytes [80, 101, 116, 101, 40, 65, 32, 110, 105, 99, 101, 32, 92, 41, 32, 99, 104, 97, 112, 41, 32, 60, 112, 101, 116, 101, 40, 104, 105, 115, 32, 97, 99, 99, 111, 117, 110, 116, 41, 64, 115, 105, 108, 108, 121, 46, 116, 101, 115, 116, 40, 104, 105, 115, 32, 104, 111, 115, 116, 41, 62]) [([80, 101, 116, 101], [112, 101, 116, 101, 64, 115, 105, 108, 108, 121, 46, 116, 101, 115, 116])] := gives (by decide +kernel)
-- line 101: Gogh Fir <gf@example.com>
example : Gives (bytes [71, 111, 103, 104, 32, 70, 105, 114, 32, 60, 103, 102, 64, 101, 120, 97, 109, 112, 108, 101, 46, 99, 111, 109, 62]) [([71, 111, 103, 104, 32, 70, 105, 114], [103, 102, 64, 101, 120, 97, 109, 112, 108, 101, 46, 99, 111, 109])] := gives (by decide +kernel)
-- line 108: normal name  <username@server.com>
example : Gives (bytes [110, 111, 114, 109, 97, 108, 32, 110, 97, 109, 101, 32, 32, 60, 117, 115, 101, 114, 110, 97, 109, 101, 64, 115, 101, 114, 118, 101, 114, 46, 99, 111, 109, 62]) [([110, 111, 114, 109, 97, 108, 32, 110, 97, 109, 101], [117, 115, 101, 114, 110, 97, 109, 101, 64, 115, 101, 114, 118, 101, 114, 46, 99, 111, 109])] := gives (by decide +kernel)
-- line 115: "comma, name"  <username@server.com>
example : Gives (bytes [34, 99, 111, 109, 109, 97, 44, 32, 110, 97, 109, 101, 34, 32, 32, 60, 117, 115, 101, 114, 110, 97, 109, 101, 64, 115, 101, 114, 118, 101, 114, 46, 99, 111, 109, 62]) [([99, 111, 109, 109, 97, 44, 32, 110, 97, 109, 101], [117, 115, 101, 114, 110, 97, 109, 101, 64, 115, 101, 114, 118, 101, 114, 46, 99, 111, 109])] := gives (by decide +kernel)
-- line 122: name  <username@server.com> (ignore comment)
example : Gives (bytes [110, 97, 109, 101, 32, 32, 60, 117, 115, 101, 114, 110, 97, 109, 101, 64, 115, 101, 114, 118, 101, 114, 46, 99, 111, 109, 62, 32, 40, 105, 103, 110, 111, 114, 101, 32, 99, 111, 109, 109, 101, 110, 116, 41]) [([110, 97, 109, 101], [117, 115, 101, 114, 110, 97, 109, 101, 64, 115, 101, 114, 118, 101, 114, 46, 99, 111, 109])] := gives (by decide +kernel)
-- line 129: "Mail Robot" <>
example : Gives (bytes [34, 77, 97, 105, 108, 32, 82, 111, 98, 111, 116, 34, 32, 60, 62]) [([77, 97, 105, 108, 32, 82, 111, 98, 111, 116], [])] := gives (by decide +kernel)
-- line 135: Michal Hořejšek <hořejšek@mail.com>
example : Gives (bytes [77, 105, 99, 104, 97, 108, 32, 72, 111, 197, 153, 101, 106, 197, 161, 101, 107, 32, 60, 104, 111, 197, 153, 101, 106, 197, 161, 101, 107, 64, 109, 97, 105, 108, 46, 99, 111, 109, 62]) [([77, 105, 99, 104, 97, 108, 32, 72, 111, 197, 153, 101, 106, 197, 161, 101, 107], [104, 111, 197, 153, 101, 106, 197, 161, 101, 107, 64, 109, 97, 105, 108, 46, 99, 111, 109])] := gives (by decide +kernel)
-- line 142: First Last <user@domain.com >
example : Gives (bytes [70, 105, 114, 115, 116, 32, 76, 97, 115, 116, 32, 60, 117, 115, 101, 114, 64, 100, 111, 109, 97, 105, 110, 46, 99, 111, 109, 32, 62]) [([70, 105, 114, 115, 116, 32, 76, 97, 115, 116], [117, 115, 101, 114, 64, 100, 111, 109, 97, 105, 110, 46, 99, 111, 109])] := gives (by decide +kernel)
-- line 149: First Last <user@domain.com. >
example : Gives (bytes [70, 105, 114, 115, 116, 32, 76, 97, 115, 116, 32, 60, 117, 115, 101, 114, 64, 100, 111, 109, 97, 105, 110, 46, 99, 111, 109, 46, 32, 62]) [([70, 105, 114, 115, 116, 32, 76, 97, 115, 116], [117, 115, 101, 114, 64, 100, 111, 109, 97, 105, 110, 46, 99, 111, 109, 46])] := gives (by decide +kernel)
-- line 156: First Last <user@domain.com.>
example : Gives (bytes [70, 105, 114, 115, 116, 32, 76, 97, 115, 116, 32, 60, 117, 115, 101, 114, 64, 100, 111, 109, 97, 105, 110, 46, 99, 111, 109, 46, 62]) [([70, 105, 114, 115, 116, 32, 76, 97, 115, 116], [117, 115, 101, 114, 64, 100, 111, 109, 97, 105, 110, 46, 99, 111, 109, 46])] := gives (by decide +kernel)
-- line 163: First Last <user@domain.com:25>
example : Gives (bytes [70, 105, 114, 115, 116, 32, 76, 97, 115, 116, 32, 60, 117, 115, 101, 114, 64, 100, 111, 109, 97, 105, 110, 46, 99, 111, 109, 58, 50, 53, 62]) [([70, 105, 114, 115, 116, 32, 76, 97, 115, 116], [117, 115, 101, 114, 64, 100, 111, 109, 97, 105, 110, 46, 99, 111, 109, 58, 50, 53])] := gives (by decide +kernel)
-- line 170: First Last <user@[10.0.0.1]>
example : Gives (bytes [70, 105, 114, 115, 116, 32, 76, 97, 115, 116, 32, 60, 117, 115, 101, 114, 64, 91, 49, 48, 46, 48, 46, 48, 46, 49, 93, 62]) [([70, 105, 114, 115, 116, 32, 76, 97, 115, 116], [117, 115, 101, 114, 64, 91, 49, 48, 46, 48, 46, 48, 46, 49, 93])] := gives (by decide +kernel)
-- line 177: <postmaster@[10.10.10.10]>
example : Gives (bytes [60, 112, 111, 115, 116, 109, 97, 115, 116, 101, 114, 64, 91, 49, 48, 46, 49, 48, 46, 49, 48, 46, 49, 48, 93, 62]) [([], [112, 111, 115, 116, 109, 97, 115, 116, 101, 114, 64, 91, 49, 48, 46, 49, 48, 46, 49, 48, 46, 49, 48, 93])] := gives (by decide +kernel)
-- line 183: First Last < user@domain.com>
example : Gives (bytes [70, 105, 114, 115, 116, 32, 76, 97, 115, 116, 32, 60, 32, 117, 115, 101, 114, 64, 100, 111, 109, 97, 105, 110, 46, 99, 111, 109, 62]) [([70, 105, 114, 115, 116, 32, 76, 97, 115, 116], [117, 115, 101, 114, 64, 100, 111, 109, 97, 105, 110, 46, 99, 111, 109])] := gives (by decide +kernel)
-- line 190: user@domain.com,
example : Gives (bytes [117, 115, 101, 114, 64, 100, 111, 109, 97, 105, 110, 46, 99, 111, 109, 44]) [([], [117, 115, 101, 114, 64, 100, 111, 109, 97, 105, 110, 46, 99, 111, 109])] := gives (by decide +kernel)
-- line 196: First Middle "Last" <user@domain.com>
example : Gives (bytes [70, 105, 114, 115, 116, 32, 77, 105, 100, 100, 108, 101, 32, 34, 76, 97, 115, 116, 34, 32, 60, 117, 115, 101, 114, 64, 100, 111, 109, 97, 105, 110, 46, 99, 111, 109, 62]) [([70, 105, 114, 115, 116, 32, 77, 105, 100, 100, 108, 101, 32, 76, 97, 115, 116], [117, 115, 101, 114, 64, 100, 111, 109, 97, 105, 110, 46, 99, 111, 109])] := gives (by decide +kernel)
-- line 203: First Middle Last <user@domain.com>
example : Gives (bytes [70, 105, 114, 115, 116, 32, 77, 105, 100, 100, 108, 101, 32, 76, 97, 115, 116, 32, 60, 117, 115, 101, 114, 64, 100, 111, 109, 97, 105, 110, 46, 99, 111, 109, 62]) [([70, 105, 114, 115, 116, 32, 77, 105, 100, 100, 108, 101, 32, 76, 97, 115, 116], [117, 115, 101, 114, 64, 100, 111, 109, 97, 105, 110, 46, 99, 111, 109])] := gives (by decide +kernel)
-- line 210: First Middle"Last" <user@domain.com>
example : Gives (bytes [70, 105, 114, 115, 116, 32, 77, 105, 100, 100, 108, 101, 34, 76, 97, 115, 116, 34, 32, 60, 117, 115, 101, 114, 64, 100, 111, 109, 97, 105, 110, 46, 99, 111, 109, 62]) [([70, 105, 114, 115, 116, 32, 77, 105, 100, 100, 108, 101, 32, 76, 97, 115, 116], [117, 115, 101, 114, 64, 100, 111, 109, 97, 105, 110, 46, 99, 111, 109])] := gives (by decide +kernel)
-- line 217: First Middle "Last"<user@domain.com>
example : Gives (bytes [70, 105, 114, 115, 116, 32, 77, 105, 100, 100, 108, 101, 32, 34, 76, 97, 115, 116, 34, 60, 117, 115, 101, 114, 64, 100, 111, 109, 97, 105, 110, 46, 99, 111, 109, 62]) [([70, 105, 114, 115, 116, 32, 77, 105, 100, 100, 108, 101, 32, 76, 97, 115, 116], [117, 115, 101, 114, 64, 100, 111, 109, 97, 105, 110, 46, 99, 111, 109])] := gives (by decide +kernel)
-- line 224: First "Middle" "Last" <user@domain.com>
example : Gives (bytes [70, 105, 114, 115, 116, 32, 34, 77, 105, 100, 100, 108, 101, 34, 32, 34, 76, 97, 115, 116, 34, 32, 60, 117, 115, 101, 114, 64, 100, 111, 109, 97, 105, 110, 46, 99, 111, 109, 62]) [([70, 105, 114, 115, 116, 32, 77, 105, 100, 100, 108, 101, 32, 76, 97, 115, 116], [117, 115, 101, 114, 64, 100, 111, 109, 97, 105, 110, 46, 99, 111, 109])] := gives (by decide +kernel)
-- line 231: First "Middle""Last" <user@domain.com>
example : Gives (bytes [70, 105, 114, 115, 116, 32, 34, 77, 105, 100, 100, 108, 101, 34, 34, 76, 97, 115, 116, 34, 32, 60, 117, 115, 101, 114, 64, 100, 111, 109, 97, 105, 110, 46, 99, 111, 109, 62]) [([70, 105, 114, 115, 116, 32, 77, 105, 100, 100, 108, 101, 32, 76, 97, 115, 116], [117, 115, 101, 114, 64, 100, 111, 109, 97, 105, 110, 46, 99, 111, 109])] := gives (by decide +kernel)
-- line 238: first.last <user@domain.com>
example : Gives (bytes [102, 105, 114, 115, 116, 46, 108, 97, 115, 116, 32, 60, 117, 115, 101, 114, 64, 100, 111, 109, 97, 105, 110, 46, 99, 111, 109, 62]) [([102, 105, 114, 115, 116, 46, 108, 97, 115, 116], [117, 115, 101, 114, 64, 100, 111, 109, 97, 105, 110, 46, 99, 111, 109])] := gives (by decide +kernel)
-- line 245: first . last <user@domain.com>
example : Gives (bytes [102, 105, 114, 115, 116, 32, 46, 32, 108, 97, 115, 116, 32, 60, 117, 115, 101, 114, 64, 100, 111, 109, 97, 105, 110, 46, 99, 111, 109, 62]) [([102, 105, 114, 115, 116, 46, 108, 97, 115, 116], [117, 115, 101, 114, 64, 100, 111, 109, 97, 105, 110, 46, 99, 111, 109])] := gives (by decide +kernel)
-- line 252: user@domain <user@domain.com>
example : Gives (bytes [117, 115, 101, 114, 64, 100, 111, 109, 97, 105, 110, 32, 60, 117, 115, 101, 114, 64, 100, 111, 109, 97, 105, 110, 46, 99, 111, 109, 62]) [([117, 115, 101, 114, 64, 100, 111, 109, 97, 105, 110], [117, 115, 101, 114, 64, 100, 111, 109, 97, 105, 110, 46, 99, 111, 109])] := gives (by decide +kernel)
-- line 259: user @ domain <user@domain.com>
example : Gives (bytes [117, 115, 101, 114, 32, 64, 32, 100, 111, 109, 97, 105, 110, 32, 60, 117, 115, 101, 114, 64, 100, 111, 109, 97, 105, 110, 46, 99, 111, 109, 62]) [([117, 115, 101, 114, 64, 100, 111, 109, 97, 105, 110], [117, 115, 101, 114, 64, 100, 111, 109, 97, 105, 110, 46, 99, 111, 109])] := gives (by decide +kernel)
/-! ## TestParseSingleAddressEncodedWord (/repo/parse_address_list_test.go) -/

-- line 283: =?US-ASCII?Q?Keith_Moore?= <moore@cs.utk.edu>
example : Gives (bytes [61, 63, 85, 83, 45, 65, 83, 67, 73, 73, 63, 81, 63, 75, 101, 105, 116, 104, 95, 77, 111, 111, 114, 101, 63, 61, 32, 60, 109, 111, 111, 114, 101, 64, 99, 115, 46, 117, 116, 107, 46, 101, 100, 117, 62]) [([75, 101, 105, 116, 104, 32, 77, 111, 111, 114, 101], [109, 111, 111, 114, 101, 64, 99, 115, 46, 117, 116, 107, 46, 101, 100, 117])] := gives (by decide +kernel)
-- line 290: =?ISO-8859-1?Q?Keld_J=F8rn_Simonsen?= <keld@dkuug.dk>
example : Gives (bytes [61, 63, 73, 83, 79, 45, 56, 56, 53, 57, 45, 49, 63, 81, 63, 75, 101, 108, 100, 95, 74, 61, 70, 56, 114, 110, 95, 83, 105, 109, 111, 110, 115, 101, 110, 63, 61, 32, 60, 107, 101, 108, 100, 64, 100, 107, 117, 117, 103, 46, 100, 107, 62]) [([75, 101, 108, 100, 32, 74, 195, 184, 114, 110, 32, 83, 105, 109, 111, 110, 115, 101, 110], [107, 101, 108, 100, 64, 100, 107, 117, 117, 103, 46, 100, 107])] := gives (by decide +kernel)
-- line 297: =?ISO-8859-1?Q?Andr=E9?= Pirard <PIRARD@vm1.ulg.ac.be>
example : Gives (bytes [61, 63, 73, 83, 79, 45, 56, 56, 53, 57, 45, 49, 63, 81, 63, 65, 110, 100, 114, 61, 69, 57, 63, 61, 32, 80, 105, 114, 97, 114, 100, 32, 60, 80, 73, 82, 65, 82, 68, 64, 118, 109, 49, 46, 117, 108, 103, 46, 97, 99, 46, 98, 101, 62]) [([65, 110, 100, 114, 195, 169, 32, 80, 105, 114, 97, 114, 100], [80, 73, 82, 65, 82, 68, 64, 118, 109, 49, 46, 117, 108, 103, 46, 97, 99, 46, 98, 101])] := gives (by decide +kernel)
-- line 304: =?ISO-8859-1?Q?Olle_J=E4rnefors?= <ojarnef@admin.kth.se>
example : Gives (bytes [61, 63, 73, 83, 79, 45, 56, 56, 53, 57, 45, 49, 63, 81, 63, 79, 108, 108, 101, 95, 74, 61, 69, 52, 114, 110, 101, 102, 111, 114, 115, 63, 61, 32, 60, 111, 106, 97, 114, 110, 101, 102, 64, 97, 100, 109, 105, 110, 46, 107, 116, 104, 46, 115, 101, 62]) [([79, 108, 108, 101, 32, 74, 195, 164, 114, 110, 101, 102, 111, 114, 115], [111, 106, 97, 114, 110, 101, 102, 64, 97, 100, 109, 105, 110, 46, 107, 116, 104, 46, 115, 101])] := gives (by decide +kernel)
-- line 311: =?ISO-8859-1?Q?Patrik_F=E4ltstr=F6m?= <paf@nada.kth.se>
example : Gives (bytes [61, 63, 73, 83, 79, 45, 56, 56, 53, 57, 45, 49, 63, 81, 63, 80, 97, 116, 114, 105, 107, 95, 70, 61, 69, 52, 108, 116, 115, 116, 114, 61, 70, 54, 109, 63, 61, 32, 60, 112, 97, 102, 64, 110, 97, 100, 97, 46, 107, 116, 104, 46, 115, 101, 62]) [([80, 97, 116, 114, 105, 107, 32, 70, 195, 164, 108, 116, 115, 116, 114, 195, 182, 109], [112, 97, 102, 64, 110, 97, 100, 97, 46, 107, 116, 104, 46, 115, 101])] := gives (by decide +kernel)
-- line 318: Nathaniel Borenstein <nsb@thumper.bellcore.com> (=?iso-8859-8?b?7eXs+SDv4SDp7Oj08A==?=)
example : Gives (bytes [78, 97, 116, 104, 97, 110, 105, 101, 108, 32, 66, 111, 114, 101, 110, 115, 116, 101, 105, 110, 32, 60, 110, 115, 98, 64, 116, 104, 117, 109, 112, 101, 114, 46, 98, 101, 108, 108, 99, 111, 114, 101, 46, 99, 111, 109, 62, 32, 40, 61, 63, 105, 115, 111, 45, 56, 56, 53, 57, 45, 56, 63, 98, 63, 55, 101, 88, 115, 43, 83, 68, 118, 52, 83, 68, 112, 55, 79, 106, 48, 56, 65, 61, 61, 63, 61, 41]) [([78, 97, 116, 104, 97, 110, 105, 101, 108, 32, 66, 111, 114, 101, 110, 115, 116, 101, 105, 110], [110, 115, 98, 64, 116, 104, 117, 109, 112, 101, 114, 46, 98, 101, 108, 108, 99, 111, 114, 101, 46, 99, 111, 109])] := gives (by decide +kernel)
-- line 325: =?UTF-8?B?PEJlemUgam3DqW5hPg==?= <user@domain.com>
example : Gives (bytes [61, 63, 85, 84, 70, 45, 56, 63, 66, 63, 80, 69, 74, 108, 101, 109, 85, 103, 97, 109, 51, 68, 113, 87, 53, 104, 80, 103, 61, 61, 63, 61, 32, 60, 117, 115, 101, 114, 64, 100, 111, 109, 97, 105, 110, 46, 99, 111, 109, 62]) [([60, 66, 101, 122, 101, 32, 106, 109, 195, 169, 110, 97, 62], [117, 115, 101, 114, 64, 100, 111, 109, 97, 105, 110, 46, 99, 111, 109])] := gives (by decide +kernel)
-- line 332: First Middle =?utf-8?Q?Last?= <user@domain.com>
example : Gives (bytes [70, 105, 114, 115, 116, 32, 77, 105, 100, 100, 108, 101, 32, 61, 63, 117, 116, 102, 45, 56, 63, 81, 63, 76, 97, 115, 116, 63, 61, 32, 60, 117, 115, 101, 114, 64, 100, 111, 109, 97, 105, 110, 46, 99, 111, 109, 62]) [([70, 105, 114, 115, 116, 32, 77, 105, 100, 100, 108, 101, 32, 76, 97, 115, 116], [117, 115, 101, 114, 64, 100, 111, 109, 97, 105, 110, 46, 99, 111, 109])] := gives (by decide +kernel)
-- line 339: First Middle=?utf-8?Q?Last?= <user@domain.com>
example : Gives (bytes [70, 105, 114, 115, 116, 32, 77, 105, 100, 100, 108, 101, 61, 63, 117, 116, 102, 45, 56, 63, 81, 63, 76, 97, 115, 116, 63, 61, 32, 60, 117, 115, 101, 114, 64, 100, 111, 109, 97, 105, 110, 46, 99, 111, 109, 62]) [([70, 105, 114, 115, 116, 32, 77, 105, 100, 100, 108, 101, 61, 63, 117, 116, 102, 45, 56, 63, 81, 63, 76, 97, 115, 116, 63, 61], [117, 115, 101, 114, 64, 100, 111, 109, 97, 105, 110, 46, 99, 111, 109])] := gives (by decide +kernel)
-- line 346: First Middle =?utf-8?Q?Last?=<user@domain.com>
example : Gives (bytes [70, 105, 114, 115, 116, 32, 77, 105, 100, 100, 108, 101, 32, 61, 63, 117, 116, 102, 45, 56, 63, 81, 63, 76, 97, 115, 116, 63, 61, 60, 117, 115, 101, 114, 64, 100, 111, 109, 97, 105, 110, 46, 99, 111, 109, 62]) [([70, 105, 114, 115, 116, 32, 77, 105, 100, 100, 108, 101, 32, 76, 97, 115, 116], [117, 115, 101, 114, 64, 100, 111, 109, 97, 105, 110, 46, 99, 111, 109])] := gives (by decide +kernel)
-- line 353: First =?utf-8?Q?Middle?= =?utf-8?Q?Last?= <user@domain.com>
example : Gives (bytes [70, 105, 114, 115, 116, 32, 61, 63, 117, 116, 102, 45, 56, 63, 81, 63, 77, 105, 100, 100, 108, 101, 63, 61, 32, 61, 63, 117, 116, 102, 45, 56, 63, 81, 63, 76, 97, 115, 116, 63, 61, 32, 60, 117, 115, 101, 114, 64, 100, 111, 109, 97, 105, 110, 46, 99, 111, 109, 62]) [([70, 105, 114, 115, 116, 32, 77, 105, 100, 100, 108, 101, 76, 97, 115, 116], [117, 115, 101, 114, 64, 100, 111, 109, 97, 105, 110, 46, 99, 111, 109])] := gives (by decide +kernel)
-- line 360: First =?utf-8?Q?Middle?==?utf-8?Q?Last?= <user@domain.com>
example : Gives (bytes [70, 105, 114, 115, 116, 32, 61, 63, 117, 116, 102, 45, 56, 63, 81, 63, 77, 105, 100, 100, 108, 101, 63, 61, 61, 63, 117, 116, 102, 45, 56, 63, 81, 63, 76, 97, 115, 116, 63, 61, 32, 60, 117, 115, 101, 114, 64, 100, 111, 109, 97, 105, 110, 46, 99, 111, 109, 62]) [([70, 105, 114, 115, 116, 32, 77, 105, 100, 100, 108, 101, 76, 97, 115, 116], [117, 115, 101, 114, 64, 100, 111, 109, 97, 105, 110, 46, 99, 111, 109])] := gives (by decide +kernel)
-- line 367: First "Middle"=?utf-8?Q?Last?= <user@domain.com>
example : Gives (bytes [70, 105, 114, 115, 116, 32, 34, 77, 105, 100, 100, 108, 101, 34, 61, 63, 117, 116, 102, 45, 56, 63, 81, 63, 76, 97, 115, 116, 63, 61, 32, 60, 117, 115, 101, 114, 64, 100, 111, 109, 97, 105, 110, 46, 99, 111, 109, 62]) [([70, 105, 114, 115, 116, 32, 77, 105, 100, 100, 108, 101, 32, 76, 97, 115, 116], [117, 115, 101, 114, 64, 100, 111, 109, 97, 105, 110, 46, 99, 111, 109])] := gives (by decide +kernel)
-- line 374: First "Middle" =?utf-8?Q?Last?= <user@domain.com>
example : Gives (bytes [70, 105, 114, 115, 116, 32, 34, 77, 105, 100, 100, 108, 101, 34, 32, 61, 63, 117, 116, 102, 45, 56, 63, 81, 63, 76, 97, 115, 116, 63, 61, 32, 60, 117, 115, 101, 114, 64, 100, 111, 109, 97, 105, 110, 46, 99, 111, 109, 62]) [([70, 105, 114, 115, 116, 32, 77, 105, 100, 100, 108, 101, 32, 76, 97, 115, 116], [117, 115, 101, 114, 64, 100, 111, 109, 97, 105, 110, 46, 99, 111, 109])] := gives (by decide +kernel)
-- line 381: First "Middle" =?utf-8?Q?Last?=<user@domain.com>
example : Gives (bytes [70, 105, 114, 115, 116, 32, 34, 77, 105, 100, 100, 108, 101, 34, 32, 61, 63, 117, 116, 102, 45, 56, 63, 81, 63, 76, 97, 115, 116, 63, 61, 60, 117, 115, 101, 114, 64, 100, 111, 109, 97, 105, 110, 46, 99, 111, 109, 62]) [([70, 105, 114, 115, 116, 32, 77, 105, 100, 100, 108, 101, 32, 76, 97, 115, 116], [117, 115, 101, 114, 64, 100, 111, 109, 97, 105, 110, 46, 99, 111, 109])] := gives (by decide +kernel)
-- line 388: =?UTF-8?B?PEJlemUgam3DqW5hPg==?= <user@domain.com>
example : Gives (bytes [61, 63, 85, 84, 70, 45, 56, 63, 66, 63, 80, 69, 74, 108, 101, 109, 85, 103, 97, 109, 51, 68, 113, 87, 53, 104, 80, 103, 61, 61, 63, 61, 32, 60, 117, 115, 101, 114, 64, 100, 111, 109, 97, 105, 110, 46, 99, 111, 109, 62]) [([60, 66, 101, 122, 101, 32, 106, 109, 195, 169, 110, 97, 62], [117, 115, 101, 114, 64, 100, 111, 109, 97, 105, 110, 46, 99, 111, 109])] := gives (by decide +kernel)
/-! ## TestParseAddressList (/repo/parse_address_list_test.go) -/

-- line 412: Alice <alice@example.com>, Bob <bob@example.com>, Eve <eve@example.com>
example : Gives (bytes [65, 108, 105, 99, 101, 32, 60, 97, 108, 105, 99, 101, 64, 101, 120, 97, 109, 112, 108, 101, 46, 99, 111, 109, 62, 44, 32, 66, 111, 98, 32, 60, 98, 111, 98, 64, 101, 120, 97, 109, 112, 108, 101, 46, 99, 111, 109, 62, 44, 32, 69, 118, 101, 32, 60, 101, 118, 101, 64, 101, 120, 97, 109, 112, 108, 101, 46, 99, 111, 109, 62]) [([65, 108, 105, 99, 101], [97, 108, 105, 99, 101, 64, 101, 120, 97, 109, 112, 108, 101, 46, 99, 111, 109]), ([66, 111, 98], [98, 111, 98, 64, 101, 120, 97, 109, 112, 108, 101, 46, 99, 111, 109]), ([69, 118, 101], [101, 118, 101, 64, 101, 120, 97, 109, 112, 108, 101, 46, 99, 111, 109])] := gives (by decide +kernel)
-- line 429: Alice <alice@example.com>; Bob <bob@example.com>; Eve <eve@example.com>
example : Gives (bytes [65, 108, 105, 99, 101, 32, 60, 97, 108, 105, 99, 101, 64, 101, 120, 97, 109, 112, 108, 101, 46, 99, 111, 109, 62, 59, 32, 66, 111, 98, 32, 60, 98, 111, 98, 64, 101, 120, 97, 109, 112, 108, 101, 46, 99, 111, 109, 62, 59, 32, 69, 118, 101, 32, 60, 101, 118, 101, 64, 101, 120, 97, 109, 112, 108, 101, 46, 99, 111, 109, 62]) [([65, 108, 105, 99, 101], [97, 108, 105, 99, 101, 64, 101, 120, 97, 109, 112, 108, 101, 46, 99, 111, 109]), ([66, 111, 98], [98, 111, 98, 64, 101, 120, 97, 109, 112, 108, 101, 46, 99, 111, 109]), ([69, 118, 101], [101, 118, 101, 64, 101, 120, 97, 109, 112, 108, 101, 46, 99, 111, 109])] := gives (by decide +kernel)
-- line 446: Ed Jones <c@a.test>,joe@where.test,John <jdoe@one.test>
example : Gives (bytes [69, 100, 32, 74, 111, 110, 101, 115, 32, 60, 99, 64, 97, 46, 116, 101, 115, 116, 62, 44, 106, 111, 101, 64, 119, 104, 101, 114, 101, 46, 116, 101, 115, 116, 44, 74, 111, 104, 110, 32, 60, 106, 100, 111, 101, 64, 111, 110, 101, 46, 116, 101, 115, 116, 62]) [([69, 100, 32, 74, 111, 110, 101, 115], [99, 64, 97, 46, 116, 101, 115, 116]), ([], [106, 111, 101, 64, 119, 104, 101, 114, 101, 46, 116, 101, 115, 116]), ([74, 111, 104, 110], [106, 100, 111, 101, 64, 111, 110, 101, 46, 116, 101, 115, 116])] := gives (by decide +kernel)
-- line 462: name (ignore comment)  <username@server.com>,  (Comment as name) username2@server.com
example : Gives (bytes [110, 97, 109, 101, 32, 40, 105, 103, 110, 111, 114, 101, 32, 99, 111, 109, 109, 101, 110, 116, 41, 32, 32, 60, 117, 115, 101, 114, 110, 97, 109, 101, 64, 115, 101, 114, 118, 101, 114, 46, 99, 111, 109, 62, 44, 32, 32, 40, 67, 111, 109, 109, 101, 110, 116, 32, 97, 115, 32, 110, 97, 109, 101, 41, 32, 117, 115, 101, 114, 110, 97, 109, 101, 50, 64, 115, 101, 114, 118, 101, 114, 46, 99, 111, 109]) [([110, 97, 109, 101], [117, 115, 101, 114, 110, 97, 109, 101, 64, 115, 101, 114, 118, 101, 114, 46, 99, 111, 109]), ([], [117, 115, 101, 114, 110, 97, 109, 101, 50, 64, 115, 101, 114, 118, 101, 114, 46, 99, 111, 109])] := gives (by decide +kernel)
-- line 474: "normal name"  <username@server.com>, "comma, name" <address@server.com>
example : Gives (bytes [34, 110, 111, 114, 109, 97, 108, 32, 110, 97, 109, 101, 34, 32, 32, 60, 117, 115, 101, 114, 110, 97, 109, 101, 64, 115, 101, 114, 118, 101, 114, 46, 99, 111, 109, 62, 44, 32, 34, 99, 111, 109, 109, 97, 44, 32, 110, 97, 109, 101, 34, 32, 60, 97, 100, 100, 114, 101, 115, 115, 64, 115, 101, 114, 118, 101, 114, 46, 99, 111, 109, 62]) [([110, 111, 114, 109, 97, 108, 32, 110, 97, 109, 101], [117, 115, 101, 114, 110, 97, 109, 101, 64, 115, 101, 114, 118, 101, 114, 46, 99, 111, 109]), ([99, 111, 109, 109, 97, 44, 32, 110, 97, 109, 101], [97, 100, 100, 114, 101, 115, 115, 64, 115, 101, 114, 118, 101, 114, 46, 99, 111, 109])] := gives (by decide +kernel)
-- line 487: "comma, one"  <username@server.com>, "comma, two" <address@server.com>
example : Gives (bytes [34, 99, 111, 109, 109, 97, 44, 32, 111, 110, 101, 34, 32, 32, 60, 117, 115, 101, 114, 110, 97, 109, 101, 64, 115, 101, 114, 118, 101, 114, 46, 99, 111, 109, 62, 44, 32, 34, 99, 111, 109, 109, 97, 44, 32, 116, 119, 111, 34, 32, 60, 97, 100, 100, 114, 101, 115, 115, 64, 115, 101, 114, 118, 101, 114, 46, 99, 111, 109, 62]) [([99, 111, 109, 109, 97, 44, 32, 111, 110, 101], [117, 115, 101, 114, 110, 97, 109, 101, 64, 115, 101, 114, 118, 101, 114, 46, 99, 111, 109]), ([99, 111, 109, 109, 97, 44, 32, 116, 119, 111], [97, 100, 100, 114, 101, 115, 115, 64, 115, 101, 114, 118, 101, 114, 46, 99, 111, 109])] := gives (by decide +kernel)
-- line 500: normal name  <username@server.com>, (comment)All.(around)address@(the)server.com
example : Gives (bytes [110, 111, 114, 109, 97, 108, 32, 110, 97, 109, 101, 32, 32, 60, 117, 115, 101, 114, 110, 97, 109, 101, 64, 115, 101, 114, 118, 101, 114, 46, 99, 111, 109, 62, 44, 32, 40, 99, 111, 109, 109, 101, 110, 116, 41, 65, 108, 108, 46, 40, 97, 114, 111, 117, 110, 100, 41, 97, 100, 100, 114, 101, 115, 115, 64, 40, 116, 104, 101, 41, 115, 101, 114, 118, 101, 114, 46, 99, 111, 109]) [([110, 111, 114, 109, 97, 108, 32, 110, 97, 109, 101], [117, 115, 101, 114, 110, 97, 109, 101, 64, 115, 101, 114, 118, 101, 114, 46, 99, 111, 109]), ([], [65, 108, 108, 46, 97, 100, 100, 114, 101, 115, 115, 64, 115, 101, 114, 118, 101, 114, 46, 99, 111, 109])] := gives (by decide +kernel)
-- line 512: normal name  <username@server.com>, All.("comma, in comment")address@(the)server.com
example : Gives (bytes [110, 111, 114, 109, 97, 108, 32, 110, 97, 109, 101, 32, 32, 60, 117, 115, 101, 114, 110, 97, 109, 101, 64, 115, 101, 114, 118, 101, 114, 46, 99, 111, 109, 62, 44, 32, 65, 108, 108, 46, 40, 34, 99, 111, 109, 109, 97, 44, 32, 105, 110, 32, 99, 111, 109, 109, 101, 110, 116, 34, 41, 97, 100, 100, 114, 101, 115, 115, 64, 40, 116, 104, 101, 41, 115, 101, 114, 118, 101, 114, 46, 99, 111, 109]) [([110, 111, 114, 109, 97, 108, 32, 110, 97, 109, 101], [117, 115, 101, 114, 110, 97, 109, 101, 64, 115, 101, 114, 118, 101, 114, 46, 99, 111, 109]), ([], [65, 108, 108, 46, 97, 100, 100, 114, 101, 115, 115, 64, 115, 101, 114, 118, 101, 114, 46, 99, 111, 109])] := gives (by decide +kernel)
/-! ## TestParseGroup (/repo/parse_address_list_test.go) -/

-- line 541: A Group:Ed Jones <c@a.test>,joe@where.test,John <jdoe@one.test>;
example : Gives (bytes [65, 32, 71, 114, 111, 117, 112, 58, 69, 100, 32, 74, 111, 110, 101, 115, 32, 60, 99, 64, 97, 46, 116, 101, 115, 116, 62, 44, 106, 111, 101, 64, 119, 104, 101, 114, 101, 46, 116, 101, 115, 116, 44, 74, 111, 104, 110, 32, 60, 106, 100, 111, 101, 64, 111, 110, 101, 46, 116, 101, 115, 116, 62, 59]) [([69, 100, 32, 74, 111, 110, 101, 115], [99, 64, 97, 46, 116, 101, 115, 116]), ([], [106, 111, 101, 64, 119, 104, 101, 114, 101, 46, 116, 101, 115, 116]), ([74, 111, 104, 110], [106, 100, 111, 101, 64, 111, 110, 101, 46, 116, 101, 115, 116])] := gives (by decide +kernel)
-- line 557: undisclosed recipients:;
example : Gives (bytes [117, 110, 100, 105, 115, 99, 108, 111, 115, 101, 100, 32, 114, 101, 99, 105, 112, 105, 101, 110, 116, 115, 58, 59]) [] := gives (by decide +kernel)
-- line 562: undisclosed recipients:
example : Gives (bytes [117, 110, 100, 105, 115, 99, 108, 111, 115, 101, 100, 32, 114, 101, 99, 105, 112, 105, 101, 110, 116, 115, 58]) [] := gives (by decide +kernel)
-- line 567: "undisclosed recipients:"
example : Gives (bytes [34, 117, 110, 100, 105, 115, 99, 108, 111, 115, 101, 100, 32, 114, 101, 99, 105, 112, 105, 101, 110, 116, 115, 58, 34]) [] := gives (by decide +kernel)
-- line 571: (Empty list)(start)Hidden recipients  :(nobody(that I know))  ;
example : Gives (bytes [40, 69, 109, 112, 116, 121, 32, 108, 105, 115, 116, 41, 40, 115, 116, 97, 114, 116, 41, 72, 105, 100, 100, 101, 110, 32, 114, 101, 99, 105, 112, 105, 101, 110, 116, 115, 32, 32, 58, 40, 110, 111, 98, 111, 100, 121, 40, 116, 104, 97, 116, 32, 73, 32, 107, 110, 111, 119, 41, 41, 32, 32, 59]) [] := gives (by decide +kernel)
/-! ## TestParseRejectedAddresses (/repo/parse_address_list_test.go) -/

-- line 594: "comma, name"  <username@server.com>, another, name <address@server.com>
example : Fails (bytes [34, 99, 111, 109, 109, 97, 44, 32, 110, 97, 109, 101, 34, 32, 32, 60, 117, 115, 101, 114, 110, 97, 109, 101, 64, 115, 101, 114, 118, 101, 114, 46, 99, 111, 109, 62, 44, 32, 97, 110, 111, 116, 104, 101, 114, 44, 32, 110, 97, 109, 101, 32, 60, 97, 100, 100, 114, 101, 115, 115, 64, 115, 101, 114, 118, 101, 114, 46, 99, 111, 109, 62]) := fails (by decide +kernel)
-- line 595: username
example : Fails (bytes [117, 115, 101, 114, 110, 97, 109, 101]) := fails (by decide +kernel)
-- line 596: =?ISO-8859-2?Q?First_Last?= <user@domain.com>, <user@domain.com,First/AAA/BBB/CCC,>
example : Fails (bytes [61, 63, 73, 83, 79, 45, 56, 56, 53, 57, 45, 50, 63, 81, 63, 70, 105, 114, 115, 116, 95, 76, 97, 115, 116, 63, 61, 32, 60, 117, 115, 101, 114, 64, 100, 111, 109, 97, 105, 110, 46, 99, 111, 109, 62, 44, 32, 60, 117, 115, 101, 114, 64, 100, 111, 109, 97, 105, 110, 46, 99, 111, 109, 44, 70, 105, 114, 115, 116, 47, 65, 65, 65, 47, 66, 66, 66, 47, 67, 67, 67, 44, 62]) := fails (by decide +kernel)
-- line 597: user@domain...com
example : Fails (bytes [117, 115, 101, 114, 64, 100, 111, 109, 97, 105, 110, 46, 46, 46, 99, 111, 109]) := fails (by decide +kernel)
-- line 598: =?windows-1250?Q?Spr=E1vce_syst=E9mu?=
example : Fails (bytes [61, 63, 119, 105, 110, 100, 111, 119, 115, 45, 49, 50, 53, 48, 63, 81, 63, 83, 112, 114, 61, 69, 49, 118, 99, 101, 95, 115, 121, 115, 116, 61, 69, 57, 109, 117, 63, 61]) := fails (by decide +kernel)
-- line 599: "'user@domain.com.'"
example : Fails (bytes [34, 39, 117, 115, 101, 114, 64, 100, 111, 109, 97, 105, 110, 46, 99, 111, 109, 46, 39, 34]) := fails (by decide +kernel)
-- line 600: <this is not an email address>
example : Fails (bytes [60, 116, 104, 105, 115, 32, 105, 115, 32, 110, 111, 116, 32, 97, 110, 32, 101, 109, 97, 105, 108, 32, 97, 100, 100, 114, 101, 115, 115, 62]) := fails (by decide +kernel)

/-! ## TestIsEmailValidCategory (/repo/tests.xml) -/

-- 5: test@io
example : Accepted (bytes [116, 101, 115, 116, 64, 105, 111]) := accepted (by decide +kernel)
-- 8: test@iana.org
example : Accepted (bytes [116, 101, 115, 116, 64, 105, 97, 110, 97, 46, 111, 114, 103]) := accepted (by decide +kernel)
-- 9: test@nominet.org.uk
example : Accepted (bytes [116, 101, 115, 116, 64, 110, 111, 109, 105, 110, 101, 116, 46, 111, 114, 103, 46, 117, 107]) := accepted (by decide +kernel)
-- 10: test@about.museum
example : Accepted (bytes [116, 101, 115, 116, 64, 97, 98, 111, 117, 116, 46, 109, 117, 115, 101, 117, 109]) := accepted (by decide +kernel)
-- 11: a@iana.org
example : Accepted (bytes [97, 64, 105, 97, 110, 97, 46, 111, 114, 103]) := accepted (by decide +kernel)
-- 14: test.test@iana.org
example : Accepted (bytes [116, 101, 115, 116, 46, 116, 101, 115, 116, 64, 105, 97, 110, 97, 46, 111, 114, 103]) := accepted (by decide +kernel)
-- 19: !#$%&`*+/=?^`{|}~@iana.org
example : Accepted (bytes [33, 35, 36, 37, 38, 96, 42, 43, 47, 61, 63, 94, 96, 123, 124, 125, 126, 64, 105, 97, 110, 97, 46, 111, 114, 103]) := accepted (by decide +kernel)
-- 21: 123@iana.org
example : Accepted (bytes [49, 50, 51, 64, 105, 97, 110, 97, 46, 111, 114, 103]) := accepted (by decide +kernel)
-- 22: test@123.com
example : Accepted (bytes [116, 101, 115, 116, 64, 49, 50, 51, 46, 99, 111, 109]) := accepted (by decide +kernel)
-- 25: abcdefghijklmnopqrstuvwxyzabcdefghijklmnopqrstuvwxyzabcdefghiklm@iana.org
example : Accepted (bytes [97, 98, 99, 100, 101, 102, 103, 104, 105, 106, 107, 108, 109, 110, 111, 112, 113, 114, 115, 116, 117, 118, 119, 120, 121, 122, 97, 98, 99, 100, 101, 102, 103, 104, 105, 106, 107, 108, 109, 110, 111, 112, 113, 114, 115, 116, 117, 118, 119, 120, 121, 122, 97, 98, 99, 100, 101, 102, 103, 104, 105, 107, 108, 109, 64, 105, 97, 110, 97, 46, 111, 114, 103]) := accepted (by decide +kernel)
-- 29: test@mason-dixon.com
example : Accepted (bytes [116, 101, 115, 116, 64, 109, 97, 115, 111, 110, 45, 100, 105, 120, 111, 110, 46, 99, 111, 109]) := accepted (by decide +kernel)
-- 32: test@c--n.com
example : Accepted (bytes [116, 101, 115, 116, 64, 99, 45, 45, 110, 46, 99, 111, 109]) := accepted (by decide +kernel)
-- 100: test@xn--hxajbheg2az3al.xn--jxalpdlp
example : Accepted (bytes [116, 101, 115, 116, 64, 120, 110, 45, 45, 104, 120, 97, 106, 98, 104, 101, 103, 50, 97, 122, 51, 97, 108, 46, 120, 110, 45, 45, 106, 120, 97, 108, 112, 100, 108, 112]) := accepted (by decide +kernel)
-- 101: xn--test@iana.org
example : Accepted (bytes [120, 110, 45, 45, 116, 101, 115, 116, 64, 105, 97, 110, 97, 46, 111, 114, 103]) := accepted (by decide +kernel)

/-! ## TestParseDateTime (/repo/parse_date_time_test.go) -/

-- line 16: Fri, 21 Nov 1997 09:55:06
example : Date (bytes [70, 114, 105, 44, 32, 50, 49, 32, 78, 111, 118, 32, 49, 57, 57, 55, 32, 48, 57, 58, 53, 53, 58, 48, 54]) (880106106) (0) := date (by decide +kernel)
-- line 20: Fri, 21 Nov 1997 09:55:06 -0600
example : Date (bytes [70, 114, 105, 44, 32, 50, 49, 32, 78, 111, 118, 32, 49, 57, 57, 55, 32, 48, 57, 58, 53, 53, 58, 48, 54, 32, 45, 48, 54, 48, 48]) (880127706) (-21600) := date (by decide +kernel)
-- line 24: Tue, 1 Jul 2003 10:52:37 +0200
example : Date (bytes [84, 117, 101, 44, 32, 49, 32, 74, 117, 108, 32, 50, 48, 48, 51, 32, 49, 48, 58, 53, 50, 58, 51, 55, 32, 43, 48, 50, 48, 48]) (1057049557) (7200) := date (by decide +kernel)
-- line 28: Thu, 13 Feb 1969 23:32:54 -0330
example : Date (bytes [84, 104, 117, 44, 32, 49, 51, 32, 70, 101, 98, 32, 49, 57, 54, 57, 32, 50, 51, 58, 51, 50, 58, 53, 52, 32, 45, 48, 51, 51, 48]) (-27723426) (-12600) := date (by decide +kernel)
-- line 32: Thu, 13 Feb 1969 23:32 -0330 (Newfoundland Time)
example : Date (bytes [84, 104, 117, 44, 32, 49, 51, 32, 70, 101, 98, 32, 49, 57, 54, 57, 32, 50, 51, 58, 51, 50, 32, 45, 48, 51, 51, 48, 32, 40, 78, 101, 119, 102, 111, 117, 110, 100, 108, 97, 110, 100, 32, 84, 105, 109, 101, 41]) (-27723480) (-12600) := date (by decide +kernel)
-- line 36: 2 Jan 2006 15:04:05 -0700
example : Date (bytes [50, 32, 74, 97, 110, 32, 50, 48, 48, 54, 32, 49, 53, 58, 48, 52, 58, 48, 53, 32, 45, 48, 55, 48, 48]) (1136239445) (-25200) := date (by decide +kernel)
-- line 40: 2 Jan 2006 15:04:05 MST
example : Date (bytes [50, 32, 74, 97, 110, 32, 50, 48, 48, 54, 32, 49, 53, 58, 48, 52, 58, 48, 53, 32, 77, 83, 84]) (1136239445) (-25200) := date (by decide +kernel)
-- line 44: 2 Jan 2006 15:04 -0700
example : Date (bytes [50, 32, 74, 97, 110, 32, 50, 48, 48, 54, 32, 49, 53, 58, 48, 52, 32, 45, 48, 55, 48, 48]) (1136239440) (-25200) := date (by decide +kernel)
-- line 48: 2 Jan 2006 15:04 MST
example : Date (bytes [50, 32, 74, 97, 110, 32, 50, 48, 48, 54, 32, 49, 53, 58, 48, 52, 32, 77, 83, 84]) (1136239440) (-25200) := date (by decide +kernel)
-- line 52: 2 Jan 06 15:04:05 -0700
example : Date (bytes [50, 32, 74, 97, 110, 32, 48, 54, 32, 49, 53, 58, 48, 52, 58, 48, 53, 32, 45, 48, 55, 48, 48]) (1136239445) (-25200) := date (by decide +kernel)
-- line 56: 2 Jan 06 15:04:05 MST
example : Date (bytes [50, 32, 74, 97, 110, 32, 48, 54, 32, 49, 53, 58, 48, 52, 58, 48, 53, 32, 77, 83, 84]) (1136239445) (-25200) := date (by decide +kernel)
-- line 60: 2 Jan 06 15:04 -0700
example : Date (bytes [50, 32, 74, 97, 110, 32, 48, 54, 32, 49, 53, 58, 48, 52, 32, 45, 48, 55, 48, 48]) (1136239440) (-25200) := date (by decide +kernel)
-- line 64: 2 Jan 06 15:04 MST
example : Date (bytes [50, 32, 74, 97, 110, 32, 48, 54, 32, 49, 53, 58, 48, 52, 32, 77, 83, 84]) (1136239440) (-25200) := date (by decide +kernel)
-- line 68: 02 Jan 2006 15:04:05 -0700
example : Date (bytes [48, 50, 32, 74, 97, 110, 32, 50, 48, 48, 54, 32, 49, 53, 58, 48, 52, 58, 48, 53, 32, 45, 48, 55, 48, 48]) (1136239445) (-25200) := date (by decide +kernel)
-- line 72: 02 Jan 2006 15:04:05 MST
example : Date (bytes [48, 50, 32, 74, 97, 110, 32, 50, 48, 48, 54, 32, 49, 53, 58, 48, 52, 58, 48, 53, 32, 77, 83, 84]) (1136239445) (-25200) := date (by decide +kernel)
-- line 76: 02 Jan 2006 15:04 -0700
example : Date (bytes [48, 50, 32, 74, 97, 110, 32, 50, 48, 48, 54, 32, 49, 53, 58, 48, 52, 32, 45, 48, 55, 48, 48]) (1136239440) (-25200) := date (by decide +kernel)
-- line 80: 02 Jan 2006 15:04 MST
example : Date (bytes [48, 50, 32, 74, 97, 110, 32, 50, 48, 48, 54, 32, 49, 53, 58, 48, 52, 32, 77, 83, 84]) (1136239440) (-25200) := date (by decide +kernel)
-- line 84: 02 Jan 06 15:04:05 -0700
example : Date (bytes [48, 50, 32, 74, 97, 110, 32, 48, 54, 32, 49, 53, 58, 48, 52, 58, 48, 53, 32, 45, 48, 55, 48, 48]) (1136239445) (-25200) := date (by decide +kernel)
-- line 88: 02 Jan 06 15:04:05 MST
example : Date (bytes [48, 50, 32, 74, 97, 110, 32, 48, 54, 32, 49, 53, 58, 48, 52, 58, 48, 53, 32, 77, 83, 84]) (1136239445) (-25200) := date (by decide +kernel)
-- line 92: 02 Jan 06 15:04 -0700
example : Date (bytes [48, 50, 32, 74, 97, 110, 32, 48, 54, 32, 49, 53, 58, 48, 52, 32, 45, 48, 55, 48, 48]) (1136239440) (-25200) := date (by decide +kernel)
-- line 96: 02 Jan 06 15:04 MST
example : Date (bytes [48, 50, 32, 74, 97, 110, 32, 48, 54, 32, 49, 53, 58, 48, 52, 32, 77, 83, 84]) (1136239440) (-25200) := date (by decide +kernel)
-- line 100: Mon, 2 Jan 2006 15:04:05 -0700
example : Date (bytes [77, 111, 110, 44, 32, 50, 32, 74, 97, 110, 32, 50, 48, 48, 54, 32, 49, 53, 58, 48, 52, 58, 48, 53, 32, 45, 48, 55, 48, 48]) (1136239445) (-25200) := date (by decide +kernel)
-- line 104: Mon, 2 Jan 2006 15:04:05 MST
example : Date (bytes [77, 111, 110, 44, 32, 50, 32, 74, 97, 110, 32, 50, 48, 48, 54, 32, 49, 53, 58, 48, 52, 58, 48, 53, 32, 77, 83, 84]) (1136239445) (-25200) := date (by decide +kernel)
-- line 108: Mon, 2 Jan 2006 15:04 -0700
example : Date (bytes [77, 111, 110, 44, 32, 50, 32, 74, 97, 110, 32, 50, 48, 48, 54, 32, 49, 53, 58, 48, 52, 32, 45, 48, 55, 48, 48]) (1136239440) (-25200) := date (by decide +kernel)
-- line 112: Mon, 2 Jan 2006 15:04 MST
example : Date (bytes [77, 111, 110, 44, 32, 50, 32, 74, 97, 110, 32, 50, 48, 48, 54, 32, 49, 53, 58, 48, 52, 32, 77, 83, 84]) (1136239440) (-25200) := date (by decide +kernel)
-- line 116: Mon, 2 Jan 06 15:04:05 -0700
example : Date (bytes [77, 111, 110, 44, 32, 50, 32, 74, 97, 110, 32, 48, 54, 32, 49, 53, 58, 48, 52, 58, 48, 53, 32, 45, 48, 55, 48, 48]) (1136239445) (-25200) := date (by decide +kernel)
-- line 120: Mon, 2 Jan 06 15:04:05 MST
example : Date (bytes [77, 111, 110, 44, 32, 50, 32, 74, 97, 110, 32, 48, 54, 32, 49, 53, 58, 48, 52, 58, 48, 53, 32, 77, 83, 84]) (1136239445) (-25200) := date (by decide +kernel)
-- line 124: Mon, 2 Jan 06 15:04 -0700
example : Date (bytes [77, 111, 110, 44, 32, 50, 32, 74, 97, 110, 32, 48, 54, 32, 49, 53, 58, 48, 52, 32, 45, 48, 55, 48, 48]) (1136239440) (-25200) := date (by decide +kernel)
-- line 128: Mon, 2 Jan 06 15:04 MST
example : Date (bytes [77, 111, 110, 44, 32, 50, 32, 74, 97, 110, 32, 48, 54, 32, 49, 53, 58, 48, 52, 32, 77, 83, 84]) (1136239440) (-25200) := date (by decide +kernel)
-- line 132: Mon, 02 Jan 2006 15:04:05 -0700
example : Date (bytes [77, 111, 110, 44, 32, 48, 50, 32, 74, 97, 110, 32, 50, 48, 48, 54, 32, 49, 53, 58, 48, 52, 58, 48, 53, 32, 45, 48, 55, 48, 48]) (1136239445) (-25200) := date (by decide +kernel)
-- line 136: Mon, 02 Jan 2006 15:04:05 MST
example : Date (bytes [77, 111, 110, 44, 32, 48, 50, 32, 74, 97, 110, 32, 50, 48, 48, 54, 32, 49, 53, 58, 48, 52, 58, 48, 53, 32, 77, 83, 84]) (1136239445) (-25200) := date (by decide +kernel)
-- line 140: Mon, 02 Jan 2006 15:04 -0700
example : Date (bytes [77, 111, 110, 44, 32, 48, 50, 32, 74, 97, 110, 32, 50, 48, 48, 54, 32, 49, 53, 58, 48, 52, 32, 45, 48, 55, 48, 48]) (1136239440) (-25200) := date (by decide +kernel)
-- line 144: Mon, 02 Jan 2006 15:04 MST
example : Date (bytes [77, 111, 110, 44, 32, 48, 50, 32, 74, 97, 110, 32, 50, 48, 48, 54, 32, 49, 53, 58, 48, 52, 32, 77, 83, 84]) (1136239440) (-25200) := date (by decide +kernel)
-- line 148: Mon, 02 Jan 06 15:04:05 -0700
example : Date (bytes [77, 111, 110, 44, 32, 48, 50, 32, 74, 97, 110, 32, 48, 54, 32, 49, 53, 58, 48, 52, 58, 48, 53, 32, 45, 48, 55, 48, 48]) (1136239445) (-25200) := date (by decide +kernel)
-- line 152: Mon, 02 Jan 06 15:04:05 MST
example : Date (bytes [77, 111, 110, 44, 32, 48, 50, 32, 74, 97, 110, 32, 48, 54, 32, 49, 53, 58, 48, 52, 58, 48, 53, 32, 77, 83, 84]) (1136239445) (-25200) := date (by decide +kernel)
-- line 156: Mon, 02 Jan 06 15:04 -0700
example : Date (bytes [77, 111, 110, 44, 32, 48, 50, 32, 74, 97, 110, 32, 48, 54, 32, 49, 53, 58, 48, 52, 32, 45, 48, 55, 48, 48]) (1136239440) (-25200) := date (by decide +kernel)
-- line 160: Mon, 02 Jan 06 15:04 MST
example : Date (bytes [77, 111, 110, 44, 32, 48, 50, 32, 74, 97, 110, 32, 48, 54, 32, 49, 53, 58, 48, 52, 32, 77, 83, 84]) (1136239440) (-25200) := date (by decide +kernel)

/-! ## TestParseDateTimeObsolete (/repo/parse_date_time_test.go) -/

-- line 181: 21 Nov 97 09:55:06 GMT
example : Date (bytes [50, 49, 32, 78, 111, 118, 32, 57, 55, 32, 48, 57, 58, 53, 53, 58, 48, 54, 32, 71, 77, 84]) (880106106) (0) := date (by decide +kernel)
-- line 185: Wed, 01 Jan 2020 12:00:00 UTC
example : Date (bytes [87, 101, 100, 44, 32, 48, 49, 32, 74, 97, 110, 32, 50, 48, 50, 48, 32, 49, 50, 58, 48, 48, 58, 48, 48, 32, 85, 84, 67]) (1577880000) (0) := date (by decide +kernel)
-- line 189: Wed, 01 Jan 2020 13:00:00 UTC
example : Date (bytes [87, 101, 100, 44, 32, 48, 49, 32, 74, 97, 110, 32, 50, 48, 50, 48, 32, 49, 51, 58, 48, 48, 58, 48, 48, 32, 85, 84, 67]) (1577883600) (0) := date (by decide +kernel)
-- line 193: Wed, 01 Jan 2020 12:30:00 UTC
example : Date (bytes [87, 101, 100, 44, 32, 48, 49, 32, 74, 97, 110, 32, 50, 48, 50, 48, 32, 49, 50, 58, 51, 48, 58, 48, 48, 32, 85, 84, 67]) (1577881800) (0) := date (by decide +kernel)

/-! ## TestParseDateTimeRelaxed (/repo/parse_date_time_test.go) -/

-- line 214: Mon, 28 Jan 2019 20:59:01 0000
example : Date (bytes [77, 111, 110, 44, 32, 50, 56, 32, 74, 97, 110, 32, 50, 48, 49, 57, 32, 50, 48, 58, 53, 57, 58, 48, 49, 32, 48, 48, 48, 48]) (1548709141) (0) := date (by decide +kernel)
-- line 218: Mon, 25 Sep 2017 5:25:40 +0200
example : Date (bytes [77, 111, 110, 44, 32, 50, 53, 32, 83, 101, 112, 32, 50, 48, 49, 55, 32, 53, 58, 50, 53, 58, 52, 48, 32, 43, 48, 50, 48, 48]) (1506309940) (7200) := date (by decide +kernel)

/-! ## TestParseDateTimeRejected (/repo/parse_date_time_test.go) -/

-- line 235: Mon, 25 Sep 2017 5:25:40 +02
example : DateFails (bytes [77, 111, 110, 44, 32, 50, 53, 32, 83, 101, 112, 32, 50, 48, 49, 55, 32, 53, 58, 50, 53, 58, 52, 48, 32, 43, 48, 50]) := dateFails (by decide +kernel)

end Rfc5322.Tests
