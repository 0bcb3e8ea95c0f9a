/-!
# Base vocabulary of the xeus model

C++ `std::string`, `zmq::message_t` payloads and JSON strings are all sequences of bytes, so they are
all modelled by `Str = List UInt8`.  Running a piece of C++ has one of four outcomes (`Res`): a value,
a C++ exception, undefined behaviour (kept as a distinct outcome, never assumed away), or waiting for
ever on a socket.
-/

namespace Xeus

/-- `std::string` / raw frame payload: a list of bytes. -/
abbrev Str := List UInt8

/-- ASCII literal as bytes.  Only used with ASCII literals of the C++ source. -/
def lit (s : String) : Str := s.toList.map (fun c => UInt8.ofNat c.toNat)

/-- C++ exceptions.  Everything but `foreign` derives from `std::exception` and is therefore caught by
the `catch (std::exception& e)` clauses of the code; `foreign` (e.g. `throw 42;` in user code) is not. -/
inductive Exc where
  /-- `nl::json::parse_error` -/
  | parseError
  /-- `nl::json::type_error` (302, 305, 306, 316 …) -/
  | typeError
  /-- `std::out_of_range` (`std::map::at`, `std::string::replace`, `nl::json::at`) -/
  | outOfRange
  /-- `std::invalid_argument` (`std::stoull`) -/
  | invalidArgument
  /-- `std::regex_error` -/
  | regexError
  /-- `std::runtime_error` thrown by xeus itself, tagged by its message prefix -/
  | runtime (what : String)
  /-- `zmq::error_t` -/
  | zmq
  /-- any other `std::exception` thrown by user code -/
  | user (n : Nat)
  /-- an exception object not derived from `std::exception` thrown by user code -/
  | foreign (n : Nat)
  deriving DecidableEq, Repr

/-- Is the exception caught by `catch (std::exception&)`? -/
def Exc.isStd : Exc → Bool
  | .foreign _ => false
  | _ => true

/-- Outcome of a computation. -/
inductive Res (α : Type) where
  | ok (a : α)
  | exc (e : Exc)
  /-- undefined behaviour; the string names the culprit -/
  | ub (why : String)
  /-- blocked for ever in a receive that nobody answers -/
  | hang
  deriving DecidableEq, Repr

namespace Res

variable {α β γ : Type}

@[simp] def bind : Res α → (α → Res β) → Res β
  | ok a, f => f a
  | exc e, _ => exc e
  | ub w, _ => ub w
  | hang, _ => hang

instance : Monad Res where
  pure := ok
  bind := bind

-- The proofs are deliberately not bare `rfl`: as `dsimp` lemmas these make the kernel unfold too much.
@[simp] theorem pure_def (a : α) : (pure a : Res α) = ok a := by cases (0 : Nat) <;> rfl
@[simp] theorem bind_ok (a : α) (f : α → Res β) : (ok a >>= f) = f a := by cases (0 : Nat) <;> rfl
@[simp] theorem bind_exc (e : Exc) (f : α → Res β) : (exc e >>= f : Res β) = exc e := by cases (0 : Nat) <;> rfl
@[simp] theorem bind_ub (w) (f : α → Res β) : (ub w >>= f : Res β) = ub w := by cases (0 : Nat) <;> rfl
@[simp] theorem bind_hang (f : α → Res β) : (hang >>= f : Res β) = hang := by cases (0 : Nat) <;> rfl

def isOk : Res α → Bool
  | ok _ => true
  | _ => false

def isUb : Res α → Bool
  | ub _ => true
  | _ => false

def isExc : Res α → Bool
  | exc _ => true
  | _ => false

theorem bind_eq_ok {x : Res α} {f : α → Res β} {b : β} :
    (x >>= f) = ok b ↔ ∃ a, x = ok a ∧ f a = ok b := by
  cases x <;> simp

end Res

/-- Two's complement 32 bit wrap-around: what `static_cast<int>` does to a 64 bit integer. -/
def wrap32 (i : Int) : Int := (i + 2147483648) % 4294967296 - 2147483648

/-- Value range of C++ `int` on the supported platforms. -/
def intMax : Int := 2147483647
def intMin : Int := -2147483648
def InInt (i : Int) : Prop := intMin ≤ i ∧ i ≤ intMax

instance (i : Int) : Decidable (InInt i) := inferInstanceAs (Decidable (_ ∧ _))

theorem wrap32_id {i : Int} (h : InInt i) : wrap32 i = i := by
  unfold InInt intMin intMax at h; unfold wrap32; omega

theorem wrap32_range (i : Int) : InInt (wrap32 i) := by
  unfold InInt intMin intMax wrap32; omega

/-- ASCII digit of a number below ten. -/
def digitChr (n : Nat) : UInt8 := UInt8.ofNat (48 + n)

/-- Digit loop of `std::to_string`: least significant digit first, pushed in front. -/
def digitsAux : Nat → Nat → Str → Str
  | 0, _, acc => acc
  | f + 1, n, acc =>
    if n < 10 then digitChr (n % 10) :: acc
    else digitsAux f (n / 10) (digitChr (n % 10) :: acc)

/-- Decimal digits of a natural number, most significant first (`std::to_string` on non-negatives). -/
def natDigits (n : Nat) : Str := digitsAux (n + 1) n []

/-- `std::to_string(int)`. -/
def intToString (i : Int) : Str :=
  if i < 0 then 45 :: natDigits i.natAbs else natDigits i.natAbs

/-- Lexicographic comparison of byte strings: the order of `std::map<std::string, _>`. -/
def strLt : Str → Str → Bool
  | [], [] => false
  | [], _ :: _ => true
  | _ :: _, [] => false
  | a :: as, b :: bs => if a < b then true else if b < a then false else strLt as bs

theorem strLt_irrefl (a : Str) : strLt a a = false := by
  induction a with
  | nil => rfl
  | cons x xs ih => simp [strLt, ih]

theorem strLt_trans {a b c : Str} (h₁ : strLt a b = true) (h₂ : strLt b c = true) :
    strLt a c = true := by
  induction a generalizing b c with
  | nil =>
    cases c with
    | nil => cases b <;> simp [strLt] at *
    | cons => rfl
  | cons x xs ih =>
    cases b with
    | nil => simp [strLt] at h₁
    | cons y ys =>
      cases c with
      | nil => simp [strLt] at h₂
      | cons z zs =>
        simp only [strLt] at *
        by_cases hxy : x < y
        · by_cases hyz : y < z
          · have : x < z := UInt8.lt_trans hxy hyz
            simp [this]
          · by_cases hzy : z < y
            · simp [hyz, hzy] at h₂
            · have : y = z := UInt8.le_antisymm (UInt8.not_lt.mp hzy) (UInt8.not_lt.mp hyz)
              subst this; simp [hxy]
        · by_cases hyx : y < x
          · simp [hxy, hyx] at h₁
          · have : x = y := UInt8.le_antisymm (UInt8.not_lt.mp hyx) (UInt8.not_lt.mp hxy)
            subst this
            simp [hxy] at h₁
            by_cases hyz : x < z
            · simp [hyz]
            · by_cases hzy : z < x
              · simp [hyz, hzy] at h₂
              · simp [hyz, hzy] at h₂ ⊢
                exact ih h₁ h₂

theorem strLt_total {a b : Str} (h : a ≠ b) (h' : strLt a b = false) : strLt b a = true := by
  induction a generalizing b with
  | nil =>
    cases b with
    | nil => exact absurd rfl h
    | cons => simp [strLt] at h'
  | cons x xs ih =>
    cases b with
    | nil => rfl
    | cons y ys =>
      simp only [strLt] at *
      by_cases hxy : x < y
      · simp [hxy] at h'
      · by_cases hyx : y < x
        · simp [hyx]
        · have : x = y := UInt8.le_antisymm (UInt8.not_lt.mp hyx) (UInt8.not_lt.mp hxy)
          subst this
          simp [hxy] at h' ⊢
          exact ih (by intro he; exact h (by rw [he])) h'

theorem strLt_asymm {a b : Str} (h : strLt a b = true) : strLt b a = false := by
  cases h' : strLt b a with
  | false => rfl
  | true => have := strLt_trans h h'; rw [strLt_irrefl] at this; exact absurd this (by simp)

end Xeus
