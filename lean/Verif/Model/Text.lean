import Verif.Model.Data
/-!
# Text of numbers and activities (`pyvrp/cpp/Activity.cpp`)

Text is a list of characters.
-/
namespace PyVRP

/-- The character of a digit 0, ..., 9. -/
def digitChar (d : Nat) : Char := Char.ofNat (48 + d)

/-- Decimal text of a number, as written by `std::ostream << size_t` (and by Python's `str`). -/
def decimal (n : Nat) : List Char :=
  if n < 10 then [digitChar n] else decimal (n / 10) ++ [digitChar (n % 10)]
  decreasing_by omega

/-- `std::isdigit` in the C locale. -/
def isDigit (c : Char) : Bool := decide (48 ≤ c.toNat) && decide (c.toNat ≤ 57)

/-- `std::isspace` in the C locale: space, and `\t`, `\n`, `\v`, `\f`, `\r`. -/
def isSpace (c : Char) : Bool := c.toNat == 32 || (decide (9 ≤ c.toNat) && decide (c.toNat ≤ 13))

/-- The number with the given decimal digits. -/
def readDigits (cs : List Char) : Nat := cs.foldl (fun n c => 10 * n + (c.toNat - 48)) 0

/-- `std::stoul(text)` (standard library, base 10): leading white space is skipped, a sign is optional, and
whatever follows the digits is ignored. A minus sign negates in the unsigned type, which has 64 bits.
`std::invalid_argument` without digits, `std::out_of_range` for too large numbers. -/
def stoul (text : List Char) : Except Error Nat :=
  let text := text.dropWhile isSpace
  let negative := text.head? == some '-'
  let text := if text.head? == some '-' || text.head? == some '+' then text.drop 1 else text
  let digits := text.takeWhile isDigit
  if digits = [] then .error (.invalidArgument "stoul")
  else if readDigits digits > SIZE_MAX then .error (.outOfRange "stoul")
  else if negative then .ok ((SIZE_MAX + 1 - readDigits digits) % (SIZE_MAX + 1))
  else .ok (readDigits digits)

/-- `char2type` (`Activity.cpp` 9-24). -/
def char2type (c : Char) : Except Error ActivityType :=
  if c = 'D' then .ok .depot
  else if c = 'C' then .ok .client
  else if c = 'L' then .ok .pickup
  else if c = 'U' then .ok .delivery
  else .error (.invalidArgument "Activity type not understood.")

/-- `type2char` (`Activity.cpp` 26-41). -/
def type2char : ActivityType → Char
  | .depot => 'D'
  | .client => 'C'
  | .pickup => 'L'
  | .delivery => 'U'

/-- `Activity(description)` (`Activity.cpp` 46-51). -/
def Activity.parse (description : List Char) : Except Error Activity :=
  match char2type (description.headD ' ') with
  | .error e => .error e
  | .ok type =>
    match description with
    | [] => .ok ⟨type, 0⟩
    | _ :: text =>
      match stoul text with
      | .error e => .error e
      | .ok idx => .ok ⟨type, idx⟩

/-- `operator<<` (`Activity.cpp` 53-56), `__str__` in Python. -/
def Activity.print (a : Activity) : List Char := type2char a.type :: decimal a.idx

/-- The number of an activity type (`Activity.h` 41-47). -/
def ActivityType.toNat : ActivityType → Nat
  | .depot => 0
  | .client => 1
  | .pickup => 2
  | .delivery => 3

/-- `std::hash<Activity>` (`Activity.h` 113-121), in `size_t`. -/
def Activity.hash (a : Activity) : Nat := (a.type.toNat * 2 ^ 20 + a.idx) % (SIZE_MAX + 1)

end PyVRP
