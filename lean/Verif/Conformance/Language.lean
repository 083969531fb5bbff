import Verif.Lang.Std

/-!
# Small programs

Tests of the parser and of the meaning of programs (`Lang/`): small Go programs with the results that the Go language specification
requires, written down by hand. They are run by the kernel. These are tests of what the theorems about source text rest on, not proofs
about the repository.
-/
namespace Conformance.Language

open GoLang

/-- The bytes of a string of ASCII characters. -/
def ascii (s : String) : List (BitVec 8) := s.toList.map fun c => .ofNat 8 c.toNat

/-- The outcome of a program. -/
inductive Outcome where
  | ret (vs : List Val)
  | panic
  | stuck

/-- Call `f` of the package with this text. -/
def go (W : Nat) (boxed : List (Name × List Name)) (text : List String) : Outcome :=
  match (parse ("package t" :: text)).bind fun f => loadPkg stdlib (n! "t") [f] boxed with
  | some k =>
    match run ⟨W, [k], fun _ _ => none, stdlib, fun _ _ _ => GoLang.stuck, fun n => n⟩ 40 (n! "t") 0 (n! "f") [] [] with
    | .ok vs _ => .ret vs
    | .panic _ => .panic
    | .stuck => .stuck
  | none => .stuck

/-- Call `f` of the package with this text, whose variables `vars` live in memory. -/
def goMem (vars : List Name) (W : Nat) (boxed : List (Name × List Name)) (text : List String) : Outcome :=
  match (parse ("package t" :: text)).bind fun f => loadMem stdlib (n! "t") [f] boxed vars with
  | some (k, h) =>
    match run ⟨W, [k], fun _ _ => none, stdlib, fun _ _ _ => GoLang.stuck, fun n => n⟩ 40 (n! "t") 0 (n! "f") [] h with
    | .ok vs _ => .ret vs
    | .panic _ => .panic
    | .stuck => .stuck
  | none => .stuck

/-! Unsigned integers wrap around. -/

example : go 64 [] [
    r#"func f() (byte, byte, uint16, uint32, uint64) {"#,
    r#"	a := byte(250)"#,
    r#"	b := byte(3)"#,
    r#"	c := uint16(65535)"#,
    r#"	d := uint32(4294967295)"#,
    r#"	e := uint64(18446744073709551615)"#,
    r#"	return a + 10, b - 5, c + 2, d * d, e + e"#,
    r#"}"#] =
    .ret [.u8 4, .u8 254, .u16 1, .u32 1, .u64 18446744073709551614] := by kernel_rfl

/-! `int` wraps around at its width. -/

example : go 32 [] [
    r#"func f() (int, int, int) {"#,
    r#"	a := 2147483647"#,
    r#"	b := -2147483648"#,
    r#"	return a + 1, b - 1, b / -1"#,
    r#"}"#] =
    .ret [.int (-2147483648), .int 2147483647, .int (-2147483648)] := by kernel_rfl

example : go 64 [] [
    r#"func f() (int, int, int) {"#,
    r#"	a := 2147483647"#,
    r#"	b := -2147483648"#,
    r#"	return a + 1, b - 1, b / -1"#,
    r#"}"#] =
    .ret [.int 2147483648, .int (-2147483649), .int 2147483648] := by kernel_rfl

/-! Division of signed integers truncates toward zero; the remainder has the sign of the dividend. -/

example : go 64 [] [
    r#"func f() (int, int, int, int, int, int) {"#,
    r#"	a := 7"#,
    r#"	b := -7"#,
    r#"	c := 2"#,
    r#"	d := -2"#,
    r#"	return a / d, b / c, b / d, a % d, b % c, b % d"#,
    r#"}"#] =
    .ret [.int (-3), .int (-3), .int 3, .int 1, .int (-1), .int (-1)] := by kernel_rfl

/-! Division by zero panics. -/

example : go 64 [] [
    r#"func f() int {"#,
    r#"	a := 7"#,
    r#"	b := 0"#,
    r#"	return a / b"#,
    r#"}"#] =
    .panic := by kernel_rfl

example : go 64 [] [
    r#"func f() uint32 {"#,
    r#"	a := uint32(7)"#,
    r#"	b := uint32(0)"#,
    r#"	return a % b"#,
    r#"}"#] =
    .panic := by kernel_rfl

/-! A shift by the width or more gives 0, for a signed right shift -1 or 0; a negative count panics. -/

example : go 64 [] [
    r#"func f() (byte, uint32, uint64, int, int, uint32) {"#,
    r#"	a := byte(255)"#,
    r#"	b := uint32(1)"#,
    r#"	c := uint64(1)"#,
    r#"	n := -5"#,
    r#"	k := 40"#,
    r#"	return a << 7, b << k, c << k, n >> k, n >> 1, b >> 1"#,
    r#"}"#] =
    .ret [.u8 128, .u32 0, .u64 1099511627776, .int (-1), .int (-3), .u32 0] := by kernel_rfl

example : go 64 [] [
    r#"func f() uint32 {"#,
    r#"	b := uint32(1)"#,
    r#"	k := -1"#,
    r#"	return b << k"#,
    r#"}"#] =
    .panic := by kernel_rfl

/-! Shifts of `int` lose the high bits. -/

example : go 32 [] [
    r#"func f() (int, int) {"#,
    r#"	b := 3"#,
    r#"	k := 31"#,
    r#"	return b << k, b << 30"#,
    r#"}"#] =
    .ret [.int (-2147483648), .int (-1073741824)] := by kernel_rfl

/-! Precedence: `*`, `/`, `%`, `<<`, `>>`, `&` before `+`, `-`, `|`, `^`, before comparisons, before `&&`, before `||`; operators of one level associate to the left. -/

example : go 64 [] [
    r#"func f() (int, int, int, int, int, bool, bool, int, int) {"#,
    r#"	a := 2"#,
    r#"	b := 3"#,
    r#"	c := 4"#,
    r#"	return a + b*c, a*b + c, a + b<<c, c | b&a, c - b - a, a+b == 5 && c > b, a > b && b > c || c > a, c ^ b*a, -a + b"#,
    r#"}"#] =
    .ret [.int 14, .int 10, .int 50, .int 6, .int (-1), .bool true, .bool true, .int 2, .int 1] := by kernel_rfl

example : go 64 [] [
    r#"func f() (int, int, int, uint32) {"#,
    r#"	a := 100"#,
    r#"	b := 7"#,
    r#"	c := 3"#,
    r#"	d := uint32(0xf0)"#,
    r#"	return a / b * c, a % b << c, a / b / c, ^d >> 4 & 0xff"#,
    r#"}"#] =
    .ret [.int 42, .int 16, .int 4, .u32 240] := by kernel_rfl

/-! Bit operators. -/

example : go 64 [] [
    r#"func f() (byte, byte, byte, byte, int, int) {"#,
    r#"	a := byte(0xcc)"#,
    r#"	b := byte(0xaa)"#,
    r#"	n := -1"#,
    r#"	return a & b, a | b, a ^ b, ^a, n & 0x7f, n ^ 5"#,
    r#"}"#] =
    .ret [.u8 0x88, .u8 0xee, .u8 0x66, .u8 0x33, .int 127, .int (-6)] := by kernel_rfl

/-! Comparisons; bytes are unsigned. -/

example : go 64 [] [
    r#"func f() (bool, bool, bool, bool, bool, bool, bool) {"#,
    r#"	a := byte(0x80)"#,
    r#"	b := byte(0x7f)"#,
    r#"	n := -1"#,
    r#"	m := 1"#,
    r#"	return a < b, a > b, n < m, n >= m, n <= -1, a != b, !(a == b)"#,
    r#"}"#] =
    .ret [.bool false, .bool true, .bool true, .bool false, .bool true, .bool true, .bool true] := by kernel_rfl

/-! Conversions truncate or extend with zeros; from a negative `int` they wrap. -/

example : go 64 [] [
    r#"func f() (byte, uint16, uint32, int, uint64, byte) {"#,
    r#"	a := 0x12345"#,
    r#"	b := byte(0xff)"#,
    r#"	n := -1"#,
    r#"	u := uint32(0xfffffffe)"#,
    r#"	return byte(a), uint16(a), uint32(b), int(b), uint64(n), byte(u)"#,
    r#"}"#] =
    .ret [.u8 0x45, .u16 0x2345, .u32 255, .int 255, .u64 18446744073709551615, .u8 254] := by kernel_rfl

example : go 32 [] [
    r#"func f() (int, int) {"#,
    r#"	u := uint32(0xffffffff)"#,
    r#"	v := uint64(0x80000000)"#,
    r#"	return int(u), int(v)"#,
    r#"}"#] =
    .ret [.int (-1), .int (-2147483648)] := by kernel_rfl

/-! `&&` and `||` do not evaluate the second operand in vain. -/

example : go 64 [] [
    r#"func f() (bool, bool) {"#,
    r#"	s := make([]byte, 0)"#,
    r#"	return len(s) > 0 && s[0] == 1, len(s) == 0 || s[0] == 1"#,
    r#"}"#] =
    .ret [.bool false, .bool true] := by kernel_rfl

/-! Literals: decimal, hexadecimal, octal, characters. -/

example : go 64 [] [
    r#"func f() (int, int, int, int, int) {"#,
    r#"	return 42, 0xFf, 0x0a, 'A', '\n'"#,
    r#"}"#] =
    .ret [.int 42, .int 255, .int 10, .int 65, .int 10] := by kernel_rfl

/-! Strings: bytes, length, escapes, concatenation, slices. -/

example : go 64 [] [
    r#"func f() (int, byte, string, string, byte, bool) {"#,
    r#"	s := "a\x00\n\"\\b""#,
    r#"	return len(s), s[1], s + "cd", s[4:], s[5], s[:1] == "a""#,
    r#"}"#] =
    .ret [.int 6, .u8 0, .str [97, 0, 10, 34, 92, 98, 99, 100], .str [92, 98], .u8 98, .bool true] := by kernel_rfl

/-! A byte converted to a string is the UTF-8 encoding of the code point; a byte slice is taken as it is. -/

example : go 64 [] [
    r#"func f() (string, string, string) {"#,
    r#"	a := byte(65)"#,
    r#"	b := byte(0xe9)"#,
    r#"	return string(a), string(b), string([]byte{0xe9, 66})"#,
    r#"}"#] =
    .ret [.str [65], .str [0xc3, 0xa9], .str [0xe9, 66]] := by kernel_rfl

/-! Indices out of range panic: slices by length, arrays, strings; negative ones. -/

example : go 64 [] [
    r#"func f() byte {"#,
    r#"	s := make([]byte, 3)"#,
    r#"	t := s[:2]"#,
    r#"	i := 2"#,
    r#"	return t[i]"#,
    r#"}"#] =
    .panic := by kernel_rfl

example : go 64 [] [
    r#"func f() byte {"#,
    r#"	s := "abc""#,
    r#"	i := 3"#,
    r#"	return s[i]"#,
    r#"}"#] =
    .panic := by kernel_rfl

example : go 64 [] [
    r#"func f() byte {"#,
    r#"	var s [4]byte"#,
    r#"	i := -1"#,
    r#"	return s[i]"#,
    r#"}"#] =
    .panic := by kernel_rfl

example : go 64 [] [
    r#"func f() byte {"#,
    r#"	var s []byte"#,
    r#"	return s[0]"#,
    r#"}"#] =
    .panic := by kernel_rfl

/-! A slice expression may extend a slice up to its capacity, not beyond; a string up to its length. -/

example : go 64 [] [
    r#"func f() (int, int) {"#,
    r#"	s := make([]byte, 5)"#,
    r#"	t := s[1:2]"#,
    r#"	u := t[0:4]"#,
    r#"	return len(t), len(u)"#,
    r#"}"#] =
    .ret [.int 1, .int 4] := by kernel_rfl

example : go 64 [] [
    r#"func f() int {"#,
    r#"	s := make([]byte, 5)"#,
    r#"	t := s[1:2]"#,
    r#"	u := t[0:5]"#,
    r#"	return len(u)"#,
    r#"}"#] =
    .panic := by kernel_rfl

example : go 64 [] [
    r#"func f() int {"#,
    r#"	s := make([]byte, 5)"#,
    r#"	t := s[1:2]"#,
    r#"	i := 2"#,
    r#"	u := t[i:]"#,
    r#"	return len(u)"#,
    r#"}"#] =
    .panic := by kernel_rfl

example : go 64 [] [
    r#"func f() string {"#,
    r#"	s := "abc""#,
    r#"	i := 2"#,
    r#"	j := 1"#,
    r#"	return s[i:j]"#,
    r#"}"#] =
    .panic := by kernel_rfl

/-! Slices share their array. -/

example : go 64 [] [
    r#"func f() (byte, byte, byte) {"#,
    r#"	s := []byte{1, 2, 3, 4}"#,
    r#"	t := s[1:3]"#,
    r#"	t[0] = 20"#,
    r#"	s[2] = 30"#,
    r#"	u := t[1:]"#,
    r#"	u[0]++"#,
    r#"	return s[1], t[1], s[2]"#,
    r#"}"#] =
    .ret [.u8 20, .u8 31, .u8 31] := by kernel_rfl

/-! Arrays and structs are copied. -/

example : go 64 [] [
    r#"type p struct {"#,
    r#"	x int"#,
    r#"	a [2]byte"#,
    r#"}"#,
    r#""#,
    r#"func f() (int, byte, byte, byte) {"#,
    r#"	var v p"#,
    r#"	v.x = 1"#,
    r#"	v.a[1] = 7"#,
    r#"	w := v"#,
    r#"	w.x = 2"#,
    r#"	w.a[1] = 8"#,
    r#"	b := v.a"#,
    r#"	b[0] = 9"#,
    r#"	return v.x, v.a[1], v.a[0], w.a[1]"#,
    r#"}"#] =
    .ret [.int 1, .u8 7, .u8 0, .u8 8] := by kernel_rfl

/-! Pointers share. -/

example : go 64 [] [
    r#"type p struct {"#,
    r#"	x int"#,
    r#"	y int"#,
    r#"}"#,
    r#""#,
    r#"func inc(q *p) {"#,
    r#"	q.x++"#,
    r#"	q.y += 10"#,
    r#"}"#,
    r#""#,
    r#"func f() (int, int, int) {"#,
    r#"	q := &p{1, 2}"#,
    r#"	r := q"#,
    r#"	inc(r)"#,
    r#"	v := *q"#,
    r#"	v.x = 100"#,
    r#"	return q.x, r.y, v.x"#,
    r#"}"#] =
    .ret [.int 2, .int 12, .int 100] := by kernel_rfl

/-! A nil pointer panics. -/

example : go 64 [] [
    r#"type p struct {"#,
    r#"	x int"#,
    r#"}"#,
    r#""#,
    r#"func f() int {"#,
    r#"	var q *p"#,
    r#"	return q.x"#,
    r#"}"#] =
    .panic := by kernel_rfl

/-! `append` writes into the array if the capacity suffices. -/

example : go 64 [] [
    r#"func f() (byte, int, byte, int) {"#,
    r#"	s := []byte{1, 2, 3, 4}"#,
    r#"	t := s[:2]"#,
    r#"	u := append(t, 9)"#,
    r#"	return s[2], len(u), u[2], len(t)"#,
    r#"}"#] =
    .ret [.u8 9, .int 3, .u8 9, .int 2] := by kernel_rfl

/-! `append` makes a new array if not, and the old one stays. -/

example : go 64 [] [
    r#"func f() (byte, byte, int, int) {"#,
    r#"	s := []byte{1, 2, 3, 4}"#,
    r#"	u := append(s, 9, 10)"#,
    r#"	u[0] = 77"#,
    r#"	return s[0], u[5], len(s), len(u)"#,
    r#"}"#] =
    .ret [.u8 1, .u8 10, .int 4, .int 6] := by kernel_rfl

example : go 64 [] [
    r#"func f() (int, byte, byte, bool, string) {"#,
    r#"	var s []byte"#,
    r#"	s = append(s, 5)"#,
    r#"	s = append(s, "xyz"...)"#,
    r#"	var z []byte"#,
    r#"	e := append(z, s[:0]...)"#,
    r#"	return len(s), s[0], s[3], e == nil, string(s[1:])"#,
    r#"}"#] =
    .ret [.int 4, .u8 5, .u8 122, .bool true, .str [120, 121, 122]] := by kernel_rfl

/-! `copy` moves the smaller number of elements, also when they overlap. -/

example : go 64 [] [
    r#"func f() (int, string, int, string) {"#,
    r#"	s := []byte("abcdef")"#,
    r#"	n := copy(s[1:], s)"#,
    r#"	t := []byte("uvwxyz")"#,
    r#"	m := copy(t, t[4:])"#,
    r#"	return n, string(s), m, string(t)"#,
    r#"}"#] =
    .ret [.int 5, .str (ascii "aabcde"), .int 2, .str (ascii "yzwxyz")] := by kernel_rfl

/-! `make` gives zeros and panics for a negative length. -/

example : go 64 [] [
    r#"func f() (int, byte) {"#,
    r#"	s := make([]byte, 3)"#,
    r#"	return len(s), s[2]"#,
    r#"}"#] =
    .ret [.int 3, .u8 0] := by kernel_rfl

example : go 64 [] [
    r#"func f() int {"#,
    r#"	n := -1"#,
    r#"	s := make([]byte, n)"#,
    r#"	return len(s)"#,
    r#"}"#] =
    .panic := by kernel_rfl

/-! `for` with `break` and `continue`: a `continue` still runs the post statement. -/

example : go 64 [] [
    r#"func f() (int, int) {"#,
    r#"	sum := 0"#,
    r#"	i := 0"#,
    r#"	for i = 0; i < 10; i++ {"#,
    r#"		if i == 3 {"#,
    r#"			continue"#,
    r#"		}"#,
    r#"		if i == 6 {"#,
    r#"			break"#,
    r#"		}"#,
    r#"		sum += i"#,
    r#"	}"#,
    r#"	return sum, i"#,
    r#"}"#] =
    .ret [.int 12, .int 6] := by kernel_rfl

/-! A loop with only a condition; a loop without one. -/

example : go 64 [] [
    r#"func f() (int, int) {"#,
    r#"	i := 10"#,
    r#"	for i > 3 {"#,
    r#"		i -= 2"#,
    r#"	}"#,
    r#"	j := 0"#,
    r#"	for {"#,
    r#"		j++"#,
    r#"		if j == 5 {"#,
    r#"			break"#,
    r#"		}"#,
    r#"	}"#,
    r#"	return i, j"#,
    r#"}"#] =
    .ret [.int 2, .int 5] := by kernel_rfl

/-! `break` and `continue` end the innermost loop. -/

example : go 64 [] [
    r#"func f() int {"#,
    r#"	n := 0"#,
    r#"	for i := 0; i < 3; i++ {"#,
    r#"		for j := 0; j < 5; j++ {"#,
    r#"			if j == 1 {"#,
    r#"				continue"#,
    r#"			}"#,
    r#"			if j == 3 {"#,
    r#"				break"#,
    r#"			}"#,
    r#"			n += 10*i + j"#,
    r#"		}"#,
    r#"	}"#,
    r#"	return n"#,
    r#"}"#] =
    .ret [.int 66] := by kernel_rfl

/-! `return` leaves all loops. -/

example : go 64 [] [
    r#"func f() int {"#,
    r#"	for i := 0; i < 3; i++ {"#,
    r#"		for {"#,
    r#"			if i == 0 {"#,
    r#"				return 42"#,
    r#"			}"#,
    r#"		}"#,
    r#"	}"#,
    r#"	return 0"#,
    r#"}"#] =
    .ret [.int 42] := by kernel_rfl

/-! `range` gives indices and elements; the elements of a slice are read when their turn comes, those of an array are copied first. -/

example : go 64 [] [
    r#"func f() (int, int, int) {"#,
    r#"	s := []byte{1, 2, 3}"#,
    r#"	a := 0"#,
    r#"	for i, b := range s {"#,
    r#"		if i == 0 {"#,
    r#"			s[2] = 50"#,
    r#"		}"#,
    r#"		a = a*100 + int(b) + i"#,
    r#"	}"#,
    r#"	n := 0"#,
    r#"	for i := range s {"#,
    r#"		n += i"#,
    r#"	}"#,
    r#"	m := 0"#,
    r#"	for _, b := range s {"#,
    r#"		m += int(b)"#,
    r#"	}"#,
    r#"	return a, n, m"#,
    r#"}"#] =
    .ret [.int 10352, .int 3, .int 53] := by kernel_rfl

example : go 64 [] [
    r#"func f() int {"#,
    r#"	var s [3]byte"#,
    r#"	a := 0"#,
    r#"	for i, b := range s {"#,
    r#"		s[2] = 50"#,
    r#"		a += int(b) + i"#,
    r#"	}"#,
    r#"	return a"#,
    r#"}"#] =
    .ret [.int 3] := by kernel_rfl

/-! `range` evaluates its operand once. -/

example : go 64 [] [
    r#"func f() int {"#,
    r#"	s := []byte{1, 2}"#,
    r#"	n := 0"#,
    r#"	for i := range s {"#,
    r#"		s = append(s, 0)"#,
    r#"		n += i + 1"#,
    r#"	}"#,
    r#"	return n"#,
    r#"}"#] =
    .ret [.int 3] := by kernel_rfl

/-! Scopes: `:=` in a block declares a new variable, `=` assigns to the outer one. -/

example : go 64 [] [
    r#"func f() (int, int) {"#,
    r#"	x := 1"#,
    r#"	y := 1"#,
    r#"	if x == 1 {"#,
    r#"		x := 2"#,
    r#"		x++"#,
    r#"		y = x"#,
    r#"	}"#,
    r#"	for x := 0; x < 5; x++ {"#,
    r#"		y += x"#,
    r#"	}"#,
    r#"	return x, y"#,
    r#"}"#] =
    .ret [.int 1, .int 13] := by kernel_rfl

/-! `:=` with several names assigns to those that are there already. -/

example : go 64 [] [
    r#"func g() (int, int) {"#,
    r#"	return 5, 6"#,
    r#"}"#,
    r#""#,
    r#"func f() (int, int, int) {"#,
    r#"	a, b := g()"#,
    r#"	c, b := b, a"#,
    r#"	return a, b, c"#,
    r#"}"#] =
    .ret [.int 5, .int 5, .int 6] := by kernel_rfl

/-! `if` with an init statement and `else if`. -/

example : go 64 [] [
    r#"func g(n int) int {"#,
    r#"	if m := n * 2; m > 10 {"#,
    r#"		return m"#,
    r#"	} else if m > 4 {"#,
    r#"		return m + 100"#,
    r#"	} else {"#,
    r#"		return 0"#,
    r#"	}"#,
    r#"}"#,
    r#""#,
    r#"func f() (int, int, int) {"#,
    r#"	return g(6), g(3), g(1)"#,
    r#"}"#] =
    .ret [.int 12, .int 106, .int 0] := by kernel_rfl

/-! `switch`: the first case that matches, no falling through, `break` ends it, `default`. -/

example : go 64 [] [
    r#"func g(n int) int {"#,
    r#"	r := 0"#,
    r#"	switch n {"#,
    r#"	case 1, 2:"#,
    r#"		r = 10"#,
    r#"	case 3:"#,
    r#"		if n == 3 {"#,
    r#"			break"#,
    r#"		}"#,
    r#"		r = 20"#,
    r#"	default:"#,
    r#"		r = 30"#,
    r#"	}"#,
    r#"	return r + 1"#,
    r#"}"#,
    r#""#,
    r#"func f() (int, int, int, int) {"#,
    r#"	return g(1), g(2), g(3), g(4)"#,
    r#"}"#] =
    .ret [.int 11, .int 11, .int 1, .int 31] := by kernel_rfl

example : go 64 [] [
    r#"func g(n int) int {"#,
    r#"	switch {"#,
    r#"	case n > 10:"#,
    r#"		return 1"#,
    r#"	case n > 5:"#,
    r#"		return 2"#,
    r#"	}"#,
    r#"	return 3"#,
    r#"}"#,
    r#""#,
    r#"func f() (int, int, int) {"#,
    r#"	return g(11), g(6), g(5)"#,
    r#"}"#] =
    .ret [.int 1, .int 2, .int 3] := by kernel_rfl

/-! A `continue` inside a `switch` goes on with the loop. -/

example : go 64 [] [
    r#"func f() int {"#,
    r#"	n := 0"#,
    r#"	for i := 0; i < 4; i++ {"#,
    r#"		switch i {"#,
    r#"		case 1:"#,
    r#"			continue"#,
    r#"		case 2:"#,
    r#"			break"#,
    r#"		default:"#,
    r#"			n += 100"#,
    r#"		}"#,
    r#"		n++"#,
    r#"	}"#,
    r#"	return n"#,
    r#"}"#] =
    .ret [.int 203] := by kernel_rfl

/-! Assignments evaluate the right side before they store; a swap works. -/

example : go 64 [] [
    r#"func f() (int, int, byte, byte) {"#,
    r#"	a := 1"#,
    r#"	b := 2"#,
    r#"	a, b = b, a"#,
    r#"	s := []byte{3, 4}"#,
    r#"	s[0], s[1] = s[1], s[0]"#,
    r#"	return a, b, s[0], s[1]"#,
    r#"}"#] =
    .ret [.int 2, .int 1, .u8 4, .u8 3] := by kernel_rfl

/-! The index on the left is evaluated before the assignments. -/

example : go 64 [] [
    r#"func f() (int, byte, byte) {"#,
    r#"	i := 0"#,
    r#"	s := []byte{7, 8}"#,
    r#"	i, s[i] = 1, 9"#,
    r#"	return i, s[0], s[1]"#,
    r#"}"#] =
    .ret [.int 1, .u8 9, .u8 8] := by kernel_rfl

/-! Assignment operators. -/

example : go 64 [] [
    r#"func f() (byte, byte, byte, byte, byte, int) {"#,
    r#"	a := byte(0xf0)"#,
    r#"	a |= 0x0f"#,
    r#"	b := byte(0xff)"#,
    r#"	b &= 0x3c"#,
    r#"	c := byte(0xff)"#,
    r#"	c ^= 0x0f"#,
    r#"	d := byte(1)"#,
    r#"	d <<= 3"#,
    r#"	e := byte(0x80)"#,
    r#"	e >>= 7"#,
    r#"	g := 17"#,
    r#"	g %= 5"#,
    r#"	g *= 3"#,
    r#"	g--"#,
    r#"	return a, b, c, d, e, g"#,
    r#"}"#] =
    .ret [.u8 0xff, .u8 0x3c, .u8 0xf0, .u8 8, .u8 1, .int 5] := by kernel_rfl

/-! Named results start as zero, and `return` alone returns them. -/

example : go 64 [] [
    r#"func g(x int) (n int, ok bool) {"#,
    r#"	if x > 3 {"#,
    r#"		n = x"#,
    r#"		ok = true"#,
    r#"		return"#,
    r#"	}"#,
    r#"	if x == 3 {"#,
    r#"		return 99, false"#,
    r#"	}"#,
    r#"	n++"#,
    r#"	return"#,
    r#"}"#,
    r#""#,
    r#"func f() (int, bool, int, bool, int, bool) {"#,
    r#"	a, b := g(5)"#,
    r#"	c, d := g(3)"#,
    r#"	e, h := g(0)"#,
    r#"	return a, b, c, d, e, h"#,
    r#"}"#] =
    .ret [.int 5, .bool true, .int 99, .bool false, .int 1, .bool false] := by kernel_rfl

/-! Arguments are passed by value; the elements of a slice are shared. -/

example : go 64 [] [
    r#"func g(n int, s []byte, a [2]byte) {"#,
    r#"	n = 9"#,
    r#"	s[0] = 9"#,
    r#"	a[0] = 9"#,
    r#"	s = s[1:]"#,
    r#"	s[0] = 8"#,
    r#"}"#,
    r#""#,
    r#"func f() (int, byte, byte, byte) {"#,
    r#"	n := 1"#,
    r#"	s := []byte{1, 2}"#,
    r#"	var a [2]byte"#,
    r#"	g(n, s, a)"#,
    r#"	return n, s[0], s[1], a[0]"#,
    r#"}"#] =
    .ret [.int 1, .u8 9, .u8 8, .u8 0] := by kernel_rfl

/-! Methods: a pointer receiver changes the object, a value receiver a copy. -/

example : go 64 [] [
    r#"type c struct {"#,
    r#"	n int"#,
    r#"}"#,
    r#""#,
    r#"func (x *c) up() int {"#,
    r#"	x.n++"#,
    r#"	return x.n"#,
    r#"}"#,
    r#""#,
    r#"func (x c) lost() int {"#,
    r#"	x.n = 50"#,
    r#"	return x.n"#,
    r#"}"#,
    r#""#,
    r#"func f() (int, int, int, int) {"#,
    r#"	p := &c{}"#,
    r#"	a := p.up()"#,
    r#"	b := p.up()"#,
    r#"	d := p.lost()"#,
    r#"	return a, b, d, p.n"#,
    r#"}"#] =
    .ret [.int 1, .int 2, .int 50, .int 2] := by kernel_rfl

/-! Struct literals: by name in any order, missing fields are zero. -/

example : go 64 [] [
    r#"type c struct {"#,
    r#"	n int"#,
    r#"	s []byte"#,
    r#"	b bool"#,
    r#"	t string"#,
    r#"}"#,
    r#""#,
    r#"func f() (int, bool, bool, int, string) {"#,
    r#"	p := &c{b: true, n: 4}"#,
    r#"	return p.n, p.s == nil, p.b, len(p.t), p.t"#,
    r#"}"#] =
    .ret [.int 4, .bool true, .bool true, .int 0, .str []] := by kernel_rfl

/-! Functions are values; a nil one panics. -/

example : go 64 [] [
    r#"func twice(x int) int {"#,
    r#"	return 2 * x"#,
    r#"}"#,
    r#""#,
    r#"func app(g func(int) int, x int) int {"#,
    r#"	return g(g(x))"#,
    r#"}"#,
    r#""#,
    r#"func f() int {"#,
    r#"	return app(twice, 5)"#,
    r#"}"#] =
    .ret [.int 20] := by kernel_rfl

example : go 64 [] [
    r#"func app(g func(int) int, x int) int {"#,
    r#"	return g(x)"#,
    r#"}"#,
    r#""#,
    r#"func f() int {"#,
    r#"	return app(nil, 5)"#,
    r#"}"#] =
    .panic := by kernel_rfl

/-! A method of a nil interface, and a method of a struct called through a nil pointer, panic. -/

example : go 64 [] [
    r#"type num interface {"#,
    r#"	get() int"#,
    r#"}"#,
    r#""#,
    r#"type one struct{}"#,
    r#""#,
    r#"func (o one) get() int {"#,
    r#"	return 1"#,
    r#"}"#,
    r#""#,
    r#"type box struct {"#,
    r#"	n num"#,
    r#"}"#,
    r#""#,
    r#"func f() int {"#,
    r#"	var b box"#,
    r#"	return b.n.get()"#,
    r#"}"#] =
    .panic := by kernel_rfl

example : go 64 [] [
    r#"type one struct{}"#,
    r#""#,
    r#"func (o one) get() int {"#,
    r#"	return 1"#,
    r#"}"#,
    r#""#,
    r#"func f() int {"#,
    r#"	var p *one"#,
    r#"	return p.get()"#,
    r#"}"#] =
    .panic := by kernel_rfl

example : go 64 [] [
    r#"type num interface {"#,
    r#"	get() int"#,
    r#"}"#,
    r#""#,
    r#"type one struct{}"#,
    r#""#,
    r#"func (o one) get() int {"#,
    r#"	return 1"#,
    r#"}"#,
    r#""#,
    r#"type box struct {"#,
    r#"	n num"#,
    r#"}"#,
    r#""#,
    r#"func f() (int, int) {"#,
    r#"	b := box{one{}}"#,
    r#"	c := box{&one{}}"#,
    r#"	return b.n.get(), c.n.get()"#,
    r#"}"#] =
    .ret [.int 1, .int 1] := by kernel_rfl

/-! Function literals refer to the variables around them. -/

example : go 64 [(n! "f", [n! "sum", n! "k"])] [
    r#"func each(n int, g func(int)) {"#,
    r#"	for i := 0; i < n; i++ {"#,
    r#"		g(i)"#,
    r#"	}"#,
    r#"}"#,
    r#""#,
    r#"func f() (int, int) {"#,
    r#"	sum := 0"#,
    r#"	k := 3"#,
    r#"	each(4, func(i int) {"#,
    r#"		sum += i * k"#,
    r#"		k = 1"#,
    r#"	})"#,
    r#"	return sum, k"#,
    r#"}"#] =
    .ret [.int 6, .int 1] := by kernel_rfl

/-! The address of a variable. -/

example : go 64 [(n! "f", [n! "x"])] [
    r#"func set(p *int, v int) {"#,
    r#"	*p = v"#,
    r#"}"#,
    r#""#,
    r#"func f() (int, int) {"#,
    r#"	x := 1"#,
    r#"	y := x"#,
    r#"	set(&x, 5)"#,
    r#"	return x, y"#,
    r#"}"#] =
    .ret [.int 5, .int 1] := by kernel_rfl

/-! Recursion. -/

example : go 64 [] [
    r#"func fib(n int) int {"#,
    r#"	if n < 2 {"#,
    r#"		return n"#,
    r#"	}"#,
    r#"	return fib(n-1) + fib(n-2)"#,
    r#"}"#,
    r#""#,
    r#"func f() int {"#,
    r#"	return fib(10)"#,
    r#"}"#] =
    .ret [.int 55] := by kernel_rfl

/-! Constants are exact and take the type of the other operand. -/

example : go 64 [] [
    r#"const big = 1000"#,
    r#"const k = 3 * 4"#,
    r#""#,
    r#"func f() (byte, int, uint64, int) {"#,
    r#"	const m = k - 2"#,
    r#"	a := byte(k)"#,
    r#"	return a + m, big * big, 1000 * big * 1000 * big, k / 5"#,
    r#"}"#] =
    .ret [.u8 22, .int 1000000, .u64 1000000000000, .int 2] := by kernel_rfl

/-! Arrays of arrays and constant lengths. -/

example : go 64 [] [
    r#"const n = 2"#,
    r#""#,
    r#"func f() (uint32, uint32, int, int) {"#,
    r#"	var a [n][2 * n]uint32"#,
    r#"	a[1][3] = 7"#,
    r#"	a[0] = a[1]"#,
    r#"	a[1][3]++"#,
    r#"	return a[0][3], a[1][3], len(a), len(a[0])"#,
    r#"}"#] =
    .ret [.u32 7, .u32 8, .int 2, .int 4] := by kernel_rfl

/-! Array literals. -/

example : go 64 [] [
    r#"var tab = [...]uint16{10, 20, 30}"#,
    r#""#,
    r#"func f() (uint16, int, byte, byte) {"#,
    r#"	a := [4]byte{1, 2}"#,
    r#"	return tab[2], len(tab), a[1], a[3]"#,
    r#"}"#] =
    .ret [.u16 30, .int 3, .u8 2, .u8 0] := by kernel_rfl

/-! A slice of an array shares it. -/

example : go 64 [] [
    r#"type d struct {"#,
    r#"	buf [4]byte"#,
    r#"}"#,
    r#""#,
    r#"func f() (byte, byte, int) {"#,
    r#"	x := &d{}"#,
    r#"	s := x.buf[1:3]"#,
    r#"	s[0] = 5"#,
    r#"	x.buf[2] = 6"#,
    r#"	n := copy(x.buf[2:], "xyz")"#,
    r#"	return x.buf[1], s[1], n"#,
    r#"}"#] =
    .ret [.u8 5, .u8 120, .int 2] := by kernel_rfl

/-! `panic` ends the program, also from a called function. -/

example : go 64 [] [
    r#"func g() {"#,
    r#"	panic("no")"#,
    r#"}"#,
    r#""#,
    r#"func f() int {"#,
    r#"	g()"#,
    r#"	return 1"#,
    r#"}"#] =
    .panic := by kernel_rfl

/-! Byte order, rotation, formatting. -/

example : go 64 [] [
    r#"import ("#,
    r#"	"encoding/binary""#,
    r#"	"math/bits""#,
    r#"	"fmt""#,
    r#")"#,
    r#""#,
    r#"func f() (uint32, uint64, byte, byte, uint16, uint32, uint32, string) {"#,
    r#"	s := []byte{1, 2, 3, 4, 5, 6, 7, 8}"#,
    r#"	t := make([]byte, 4)"#,
    r#"	binary.BigEndian.PutUint32(t, uint32(0x0a0b0c0d))"#,
    r#"	u := make([]byte, 2)"#,
    r#"	binary.LittleEndian.PutUint16(u, uint16(0x1234))"#,
    r#"	x := uint32(0x80000001)"#,
    r#"	return binary.LittleEndian.Uint32(s), binary.BigEndian.Uint64(s), t[0], u[0], binary.BigEndian.Uint16(s[6:]), bits.RotateLeft32(x, 4), bits.RotateLeft32(x, -1), fmt.Sprintf("%s=%d.", "n", -120)"#,
    r#"}"#] =
    .ret [.u32 0x04030201, .u64 0x0102030405060708, .u8 10, .u8 0x34, .u16 0x0708, .u32 0x18, .u32 0xc0000000, .str (ascii "n=-120.")] := by kernel_rfl

/-! A slice that is too short panics in package binary. -/

example : go 64 [] [
    r#"import "encoding/binary""#,
    r#""#,
    r#"func f() uint32 {"#,
    r#"	s := make([]byte, 4)"#,
    r#"	return binary.LittleEndian.Uint32(s[1:])"#,
    r#"}"#] =
    .panic := by kernel_rfl

/-! Comments and line ends. -/

example : go 64 [] [
    r#"// a comment"#,
    r#"func f() int { // one"#,
    r#"	x := 1 + // two"#,
    r#"		2"#,
    r#"	y := x * 2; // three"#,
    r#"	return y"#,
    r#"}"#] =
    .ret [.int 6] := by kernel_rfl

/-! Multiplication of signed integers wraps around. -/

example : go 32 [] [
    r#"func f() (int, int) {"#,
    r#"	a := 65536"#,
    r#"	b := -65537"#,
    r#"	return a * a / 2, b * 65536"#,
    r#"}"#] =
    .ret [.int 0, .int (-65536)] := by kernel_rfl

/-! Comparisons of integers, of both signs and kinds. -/

example : go 64 [] [
    r#"func f() (bool, bool, bool, bool, bool, bool) {"#,
    r#"	a := -3"#,
    r#"	b := 2"#,
    r#"	return a == b, a != b, a < b, a <= b, a > b, a >= b"#,
    r#"}"#] =
    .ret [.bool false, .bool true, .bool true, .bool true, .bool false, .bool false] := by kernel_rfl

example : go 64 [] [
    r#"func f() (bool, bool, bool, bool, bool, bool) {"#,
    r#"	a := 5"#,
    r#"	b := 5"#,
    r#"	return a == b, a != b, a < b, a <= b, a > b, a >= b"#,
    r#"}"#] =
    .ret [.bool true, .bool false, .bool false, .bool true, .bool false, .bool true] := by kernel_rfl

example : go 64 [] [
    r#"func f() (bool, bool, bool, bool, bool, bool) {"#,
    r#"	a := byte(200)"#,
    r#"	b := byte(100)"#,
    r#"	return a == b, a != b, a < b, a <= b, a > b, a >= b"#,
    r#"}"#] =
    .ret [.bool false, .bool true, .bool false, .bool false, .bool true, .bool true] := by kernel_rfl

/-! Comparisons of strings are bytewise. -/

example : go 64 [] [
    r#"func f() (bool, bool, bool, bool) {"#,
    r#"	a := "abc""#,
    r#"	b := "abd""#,
    r#"	return a == b, a != b, a == "abc", a != "abc""#,
    r#"}"#] =
    .ret [.bool false, .bool true, .bool true, .bool false] := by kernel_rfl

/-! `strings.Split` with an empty separator: one string per character, a byte that is not UTF-8 counts as one. -/

example : go 64 [] [
    r#"import ("#,
    r#"	"strings""#,
    r#")"#,
    r#""#,
    r#"func f() (int, string, string, string, string, string) {"#,
    r#"	l := strings.Split("a\xc3\xa9\xff\xe2\x90\x83\xf0\x9f\x98\x80", "")"#,
    r#"	return len(l), l[0], l[1], l[2], l[3], l[4]"#,
    r#"}"#] =
    .ret [.int 5, .str [97], .str [0xc3, 0xa9], .str [0xff], .str [0xe2, 0x90, 0x83], .str [0xf0, 0x9f, 0x98, 0x80]] := by kernel_rfl

/-! Overlong forms, surrogates and values above U+10FFFF are no characters. -/

example : go 64 [] [
    r#"import ("#,
    r#"	"strings""#,
    r#")"#,
    r#""#,
    r#"func f() (int, int, int, int, int, int, int, int) {"#,
    r#"	return len(strings.Split("\xc1\x81", "")), len(strings.Split("\xe0\x80\x80", "")), len(strings.Split("\xed\xa0\x80", "")), len(strings.Split("\xf4\x90\x80\x80", "")), len(strings.Split("\xe2\x90", "")), len(strings.Split("\xed\x9f\xbf", "")), len(strings.Split("\xf4\x8f\xbf\xbf", "")), len(strings.Split("", ""))"#,
    r#"}"#] =
    .ret [.int 2, .int 3, .int 3, .int 4, .int 2, .int 1, .int 1, .int 0] := by kernel_rfl

/-! Octal numbers. -/

example : go 64 [] [
    r#"func f() (int, int, int) {"#,
    r#"	return 010, 0666, 0"#,
    r#"}"#] =
    .ret [.int 8, .int 438, .int 0] := by kernel_rfl

/-! Raw strings; the texts of a file are joined by line ends. -/

example : go 64 [] [
    r#"import "fmt""#,
    r#""#,
    r#"func f() (string, int, string) {"#,
    r#"	a := `a\n"b` // a `comment`"#,
    r#"	b := len(`one
  two
`)"#,
    r#"	return a, b, fmt.Sprintf(`%016x`, uint64(0xabcdef0123))"#,
    r#"}"#] =
    .ret [.str [97, 92, 110, 34, 98], .int 10, .str (ascii "000000abcdef0123")] := by kernel_rfl

example : go 64 [] [
    r#"func f() int { // a comment does not
	return 1"#,
    r#"}"#] =
    .stuck := by kernel_rfl

/-! An empty slice is not nil. -/

example : go 64 [] [
    r#"func f() (bool, bool, bool) {"#,
    r#"	a := make([]byte, 0)"#,
    r#"	var b []byte"#,
    r#"	return a == nil, b == nil, a != nil"#,
    r#"}"#] =
    .ret [.bool false, .bool true, .bool true] := by kernel_rfl

/-! Assignments are carried out from left to right, with the places and values found before. -/

example : go 64 [] [
    r#"func f() (int, int, int, int) {"#,
    r#"	x := 0"#,
    r#"	x, x = 1, 2"#,
    r#"	a := []int{1, 2}"#,
    r#"	a[0], a[0] = 5, 6"#,
    r#"	i := 0"#,
    r#"	i, a[i] = 1, 9"#,
    r#"	return x, a[0], a[1], i"#,
    r#"}"#] =
    .ret [.int 2, .int 9, .int 2, .int 1] := by kernel_rfl

/-! `append` writes in place if the capacity just suffices, and not if it does not. -/

example : go 64 [] [
    r#"func f() (byte, byte, byte) {"#,
    r#"	s := make([]byte, 3)"#,
    r#"	t := append(s[:2], 9)"#,
    r#"	u := append(s[:2], 7, 8)"#,
    r#"	return s[2], t[2], u[2]"#,
    r#"}"#] =
    .ret [.u8 9, .u8 9, .u8 7] := by kernel_rfl

/-! The variable of an if statement ends with it. -/

example : go 64 [] [
    r#"func f() int {"#,
    r#"	x := 1"#,
    r#"	if x := 5; x > 3 {"#,
    r#"		x++"#,
    r#"	} else if y := x; y > 1 {"#,
    r#"		return y"#,
    r#"	}"#,
    r#"	return x"#,
    r#"}"#] =
    .ret [.int 1] := by kernel_rfl

/-! Operands, arguments and elements are evaluated from left to right. -/

example : go 64 [] [
    r#"func g(s []int) int {"#,
    r#"	s[0] = 2*s[0] + 1"#,
    r#"	return s[0]"#,
    r#"}"#,
    r#""#,
    r#"func h(a, b, c int) int {"#,
    r#"	return a + 10*b + 100*c"#,
    r#"}"#,
    r#""#,
    r#"func f() (int, int, int, int, int) {"#,
    r#"	s := []int{0}"#,
    r#"	t := make([]int, 4)"#,
    r#"	t[g(s)] = g(s)"#,
    r#"	s[0] = 0"#,
    r#"	a := g(s) - 10*g(s)"#,
    r#"	s[0] = 0"#,
    r#"	b := h(g(s), g(s), g(s))"#,
    r#"	s[0] = 0"#,
    r#"	c := []int{g(s), g(s)}"#,
    r#"	s[0] = 0"#,
    r#"	d, e := g(s), g(s)"#,
    r#"	return a, b, c[0]+10*c[1], d + 10*e, t[1]"#,
    r#"}"#] =
    .ret [.int (-29), .int 731, .int 31, .int 31, .int 3] := by kernel_rfl

/-! Variables of the package that are assigned to. -/

example : goMem [n! "a", n! "c"] 64 [] [
    r#"const n = 2"#,
    r#""#,
    r#"var a = [2 * n]uint64{}"#,
    r#"var b = []byte("xyz")"#,
    r#"var c = 5"#,
    r#""#,
    r#"func g(i int) {"#,
    r#"	a[i] = uint64(i) + 7"#,
    r#"	c += i"#,
    r#"}"#,
    r#""#,
    r#"func f() (uint64, uint64, int, int, uint64, byte) {"#,
    r#"	g(1)"#,
    r#"	g(3)"#,
    r#"	s := a[:]"#,
    r#"	s[0]++"#,
    r#"	x := a"#,
    r#"	a[1] = 9"#,
    r#"	c := c + 1"#,
    r#"	return a[0] + s[1], a[3], len(a), c, x[1], b[1]"#,
    r#"}"#] =
    .ret [.u64 10, .u64 10, .int 4, .int 10, .u64 8, .u8 121] := by kernel_rfl

/-! Variables of the package with a type, and without a value. -/

example : goMem [n! "x", n! "y", n! "w"] 64 [] [
    r#"type p struct {"#,
    r#"	a int"#,
    r#"	b [2]byte"#,
    r#"}"#,
    r#""#,
    r#"var x uint16 = 65535"#,
    r#"var y [3]uint32"#,
    r#"var z []byte"#,
    r#"var w p"#,
    r#"var e error"#,
    r#"var k byte = 3"#,
    r#""#,
    r#"func f() (uint16, uint32, int, bool, int, byte, bool, byte) {"#,
    r#"	y[1]--"#,
    r#"	w.b[1] = k << 7"#,
    r#"	x++"#,
    r#"	return x, y[1] + y[2], len(z), z == nil, w.a, w.b[1] + w.b[0], e == nil, k"#,
    r#"}"#] =
    .ret [.u16 0, .u32 4294967295, .int 0, .bool true, .int 0, .u8 128, .bool true, .u8 3] := by kernel_rfl

example : go 64 [] [
    r#"type p struct {"#,
    r#"	a uint16"#,
    r#"}"#,
    r#""#,
    r#"var x uint16 = 65535"#,
    r#"var y [2]p"#,
    r#"var z int"#,
    r#""#,
    r#"func f() (uint16, uint16, int) {"#,
    r#"	v := x + 2"#,
    r#"	return v, y[1].a, z"#,
    r#"}"#] =
    .ret [.u16 1, .u16 0, .int 0] := by kernel_rfl

/-! A variable of the package that is not in memory cannot be assigned to. -/

example : go 64 [] [
    r#"var c = 5"#,
    r#""#,
    r#"func f() int {"#,
    r#"	c = 6"#,
    r#"	return c"#,
    r#"}"#] =
    .stuck := by kernel_rfl

/-! `bits.RotateLeft64`. -/

example : go 64 [] [
    r#"import "math/bits""#,
    r#""#,
    r#"func f() (uint64, uint64, uint64) {"#,
    r#"	x := uint64(0x8000000000000001)"#,
    r#"	return bits.RotateLeft64(x, 4), bits.RotateLeft64(x, -8), bits.RotateLeft64(x, 64)"#,
    r#"}"#] =
    .ret [.u64 0x18, .u64 0x0180000000000000, .u64 0x8000000000000001] := by kernel_rfl

/-! A function literal cannot refer to a variable that is not in memory. -/

example : go 64 [] [
    r#"func app(g func(int) int, x int) int {"#,
    r#"	return g(x)"#,
    r#"}"#,
    r#""#,
    r#"func f() int {"#,
    r#"	y := 5"#,
    r#"	return app(func(x int) int { return x + y }, 1)"#,
    r#"}"#] =
    .stuck := by kernel_rfl

/-! Parameters of one type keep their order. -/

example : go 64 [] [
    r#"func g(a, b, c int, d, e byte) int {"#,
    r#"	return a*10000 + b*1000 + c*100 + int(d)*10 + int(e)"#,
    r#"}"#,
    r#""#,
    r#"func f() int {"#,
    r#"	return g(1, 2, 3, 4, 5)"#,
    r#"}"#] =
    .ret [.int 12345] := by kernel_rfl

/-! Package `encoding/binary`, written. -/

example : go 64 [] [
    r#"import "encoding/binary""#,
    r#""#,
    r#"func f() (byte, byte, byte, byte, byte, byte, byte, byte) {"#,
    r#"	a := make([]byte, 8)"#,
    r#"	b := make([]byte, 5)"#,
    r#"	binary.LittleEndian.PutUint64(a, uint64(0x0102030405060708))"#,
    r#"	binary.BigEndian.PutUint32(b[1:], uint32(0x11121314))"#,
    r#"	return a[0], a[1], a[6], a[7], b[0], b[1], b[2], b[4]"#,
    r#"}"#] =
    .ret [.u8 8, .u8 7, .u8 2, .u8 1, .u8 0, .u8 0x11, .u8 0x12, .u8 0x14] := by kernel_rfl

/-! `bytes.Compare`. -/

example : go 64 [] [
    r#"import "bytes""#,
    r#""#,
    r#"func f() (int, int, int, int, int) {"#,
    r#"	a := []byte("abc")"#,
    r#"	b := []byte("abd")"#,
    r#"	return bytes.Compare(a, b), bytes.Compare(b, a), bytes.Compare(a, a), bytes.Compare(a[:2], a), bytes.Compare(a, a[:2])"#,
    r#"}"#] =
    .ret [.int (-1), .int 1, .int 0, .int (-1), .int 1] := by kernel_rfl

/-! Package `net` of the standard library: `IP.To4` gives the same memory, `IPMask.Size` is 0, 0 for a mask with gaps. -/

example : go 64 [] [
    r#"import "net""#,
    r#""#,
    r#"func to4(ip net.IP) net.IP {"#,
    r#"	return ip.To4()"#,
    r#"}"#,
    r#""#,
    r#"func size(m net.IPMask) (int, int) {"#,
    r#"	a, b := m.Size()"#,
    r#"	return a, b"#,
    r#"}"#,
    r#""#,
    r#"func f() (byte, int, bool, bool, int, int, int, int, byte) {"#,
    r#"	a := make([]byte, 16)"#,
    r#"	n := to4(a)"#,
    r#"	a[10] = 255"#,
    r#"	a[11] = 255"#,
    r#"	a[12] = 7"#,
    r#"	b := to4(a)"#,
    r#"	b[3] = 9"#,
    r#"	c, d := size([]byte{255, 254, 0, 0})"#,
    r#"	e, g := size([]byte{255, 253, 0, 0})"#,
    r#"	return b[0], len(b), n == nil, to4(a[:5]) == nil, c, d, e, g, a[15]"#,
    r#"}"#] =
    .ret [.u8 7, .int 4, .bool true, .bool true, .int 15, .int 32, .int 0, .int 0, .u8 9] := by kernel_rfl

/-! Programs outside the fragment have no meaning: floating point literals, ranges over strings, constants of the wrong type. -/

example : go 64 [] [
    r#"func f() int {"#,
    r#"	return 089"#,
    r#"}"#] =
    .stuck := by kernel_rfl

example : go 64 [] [
    r#"func f() int {"#,
    r#"	return 1e3"#,
    r#"}"#] =
    .stuck := by kernel_rfl

example : go 64 [] [
    r#"func f() int {"#,
    r#"	n := 0"#,
    r#"	for i, c := range "abc" {"#,
    r#"		n += i + int(c)"#,
    r#"	}"#,
    r#"	return n"#,
    r#"}"#] =
    .stuck := by kernel_rfl

example : go 64 [] [
    r#"func f() int {"#,
    r#"	var a int = "b""#,
    r#"	return a"#,
    r#"}"#] =
    .stuck := by kernel_rfl

end Conformance.Language
