#!/usr/bin/env python3
"""Writes lean/Verif/Conformance/Language.lean: small Go programs and the results the language specification requires."""
T=[]
def t(doc,src,exp,W=None,boxed=None,vars=None): T.append((doc,src,exp,W,boxed,vars))
t("Unsigned integers wrap around.","""
func f() (byte, byte, uint16, uint32, uint64) {
	a := byte(250)
	b := byte(3)
	c := uint16(65535)
	d := uint32(4294967295)
	e := uint64(18446744073709551615)
	return a + 10, b - 5, c + 2, d * d, e + e
}""","[.u8 4, .u8 254, .u16 1, .u32 1, .u64 18446744073709551614]")
t("`int` wraps around at its width.","""
func f() (int, int, int) {
	a := 2147483647
	b := -2147483648
	return a + 1, b - 1, b / -1
}""","[.int (-2147483648), .int 2147483647, .int (-2147483648)]",32)
t(None,"""
func f() (int, int, int) {
	a := 2147483647
	b := -2147483648
	return a + 1, b - 1, b / -1
}""","[.int 2147483648, .int (-2147483649), .int 2147483648]",64)
t("Division of signed integers truncates toward zero; the remainder has the sign of the dividend.","""
func f() (int, int, int, int, int, int) {
	a := 7
	b := -7
	c := 2
	d := -2
	return a / d, b / c, b / d, a % d, b % c, b % d
}""","[.int (-3), .int (-3), .int 3, .int 1, .int (-1), .int (-1)]")
t("Division by zero panics.","""
func f() int {
	a := 7
	b := 0
	return a / b
}""",None)
t(None,"""
func f() uint32 {
	a := uint32(7)
	b := uint32(0)
	return a % b
}""",None)
t("A shift by the width or more gives 0, for a signed right shift -1 or 0; a negative count panics.","""
func f() (byte, uint32, uint64, int, int, uint32) {
	a := byte(255)
	b := uint32(1)
	c := uint64(1)
	n := -5
	k := 40
	return a << 7, b << k, c << k, n >> k, n >> 1, b >> 1
}""","[.u8 128, .u32 0, .u64 1099511627776, .int (-1), .int (-3), .u32 0]")
t(None,"""
func f() uint32 {
	b := uint32(1)
	k := -1
	return b << k
}""",None)
t("Shifts of `int` lose the high bits.","""
func f() (int, int) {
	b := 3
	k := 31
	return b << k, b << 30
}""","[.int (-2147483648), .int (-1073741824)]",32)
t("Precedence: `*`, `/`, `%`, `<<`, `>>`, `&` before `+`, `-`, `|`, `^`, before comparisons, before `&&`, before `||`; operators of one level associate to the left.","""
func f() (int, int, int, int, int, bool, bool, int, int) {
	a := 2
	b := 3
	c := 4
	return a + b*c, a*b + c, a + b<<c, c | b&a, c - b - a, a+b == 5 && c > b, a > b && b > c || c > a, c ^ b*a, -a + b
}""","[.int 14, .int 10, .int 50, .int 6, .int (-1), .bool true, .bool true, .int 2, .int 1]")
t(None,"""
func f() (int, int, int, uint32) {
	a := 100
	b := 7
	c := 3
	d := uint32(0xf0)
	return a / b * c, a % b << c, a / b / c, ^d >> 4 & 0xff
}""","[.int 42, .int 16, .int 4, .u32 240]")
t("Bit operators.","""
func f() (byte, byte, byte, byte, int, int) {
	a := byte(0xcc)
	b := byte(0xaa)
	n := -1
	return a & b, a | b, a ^ b, ^a, n & 0x7f, n ^ 5
}""","[.u8 0x88, .u8 0xee, .u8 0x66, .u8 0x33, .int 127, .int (-6)]")
t("Comparisons; bytes are unsigned.","""
func f() (bool, bool, bool, bool, bool, bool, bool) {
	a := byte(0x80)
	b := byte(0x7f)
	n := -1
	m := 1
	return a < b, a > b, n < m, n >= m, n <= -1, a != b, !(a == b)
}""","[.bool false, .bool true, .bool true, .bool false, .bool true, .bool true, .bool true]")
t("Conversions truncate or extend with zeros; from a negative `int` they wrap.","""
func f() (byte, uint16, uint32, int, uint64, byte) {
	a := 0x12345
	b := byte(0xff)
	n := -1
	u := uint32(0xfffffffe)
	return byte(a), uint16(a), uint32(b), int(b), uint64(n), byte(u)
}""","[.u8 0x45, .u16 0x2345, .u32 255, .int 255, .u64 18446744073709551615, .u8 254]")
t(None,"""
func f() (int, int) {
	u := uint32(0xffffffff)
	v := uint64(0x80000000)
	return int(u), int(v)
}""","[.int (-1), .int (-2147483648)]",32)
t("`&&` and `||` do not evaluate the second operand in vain.","""
func f() (bool, bool) {
	s := make([]byte, 0)
	return len(s) > 0 && s[0] == 1, len(s) == 0 || s[0] == 1
}""","[.bool false, .bool true]")
t("Literals: decimal, hexadecimal, octal, characters.","""
func f() (int, int, int, int, int) {
	return 42, 0xFf, 0x0a, 'A', '\\n'
}""","[.int 42, .int 255, .int 10, .int 65, .int 10]")
t("Strings: bytes, length, escapes, concatenation, slices.","""
func f() (int, byte, string, string, byte, bool) {
	s := "a\\x00\\n\\"\\\\b"
	return len(s), s[1], s + "cd", s[4:], s[5], s[:1] == "a"
}""","[.int 6, .u8 0, .str [97, 0, 10, 34, 92, 98, 99, 100], .str [92, 98], .u8 98, .bool true]")
t("A byte converted to a string is the UTF-8 encoding of the code point; a byte slice is taken as it is.","""
func f() (string, string, string) {
	a := byte(65)
	b := byte(0xe9)
	return string(a), string(b), string([]byte{0xe9, 66})
}""","[.str [65], .str [0xc3, 0xa9], .str [0xe9, 66]]")
t("Indices out of range panic: slices by length, arrays, strings; negative ones.","""
func f() byte {
	s := make([]byte, 3)
	t := s[:2]
	i := 2
	return t[i]
}""",None)
t(None,"""
func f() byte {
	s := "abc"
	i := 3
	return s[i]
}""",None)
t(None,"""
func f() byte {
	var s [4]byte
	i := -1
	return s[i]
}""",None)
t(None,"""
func f() byte {
	var s []byte
	return s[0]
}""",None)
t("A slice expression may extend a slice up to its capacity, not beyond; a string up to its length.","""
func f() (int, int) {
	s := make([]byte, 5)
	t := s[1:2]
	u := t[0:4]
	return len(t), len(u)
}""","[.int 1, .int 4]")
t(None,"""
func f() int {
	s := make([]byte, 5)
	t := s[1:2]
	u := t[0:5]
	return len(u)
}""",None)
t(None,"""
func f() int {
	s := make([]byte, 5)
	t := s[1:2]
	i := 2
	u := t[i:]
	return len(u)
}""",None)
t(None,"""
func f() string {
	s := "abc"
	i := 2
	j := 1
	return s[i:j]
}""",None)
t("Slices share their array.","""
func f() (byte, byte, byte) {
	s := []byte{1, 2, 3, 4}
	t := s[1:3]
	t[0] = 20
	s[2] = 30
	u := t[1:]
	u[0]++
	return s[1], t[1], s[2]
}""","[.u8 20, .u8 31, .u8 31]")
t("Arrays and structs are copied.","""
type p struct {
	x int
	a [2]byte
}

func f() (int, byte, byte, byte) {
	var v p
	v.x = 1
	v.a[1] = 7
	w := v
	w.x = 2
	w.a[1] = 8
	b := v.a
	b[0] = 9
	return v.x, v.a[1], v.a[0], w.a[1]
}""","[.int 1, .u8 7, .u8 0, .u8 8]")
t("Pointers share.","""
type p struct {
	x int
	y int
}

func inc(q *p) {
	q.x++
	q.y += 10
}

func f() (int, int, int) {
	q := &p{1, 2}
	r := q
	inc(r)
	v := *q
	v.x = 100
	return q.x, r.y, v.x
}""","[.int 2, .int 12, .int 100]")
t("A nil pointer panics.","""
type p struct {
	x int
}

func f() int {
	var q *p
	return q.x
}""",None)
t("`append` writes into the array if the capacity suffices.","""
func f() (byte, int, byte, int) {
	s := []byte{1, 2, 3, 4}
	t := s[:2]
	u := append(t, 9)
	return s[2], len(u), u[2], len(t)
}""","[.u8 9, .int 3, .u8 9, .int 2]")
t("`append` makes a new array if not, and the old one stays.","""
func f() (byte, byte, int, int) {
	s := []byte{1, 2, 3, 4}
	u := append(s, 9, 10)
	u[0] = 77
	return s[0], u[5], len(s), len(u)
}""","[.u8 1, .u8 10, .int 4, .int 6]")
t(None,"""
func f() (int, byte, byte, bool, string) {
	var s []byte
	s = append(s, 5)
	s = append(s, "xyz"...)
	var z []byte
	e := append(z, s[:0]...)
	return len(s), s[0], s[3], e == nil, string(s[1:])
}""","[.int 4, .u8 5, .u8 122, .bool true, .str [120, 121, 122]]")
t("`copy` moves the smaller number of elements, also when they overlap.","""
func f() (int, string, int, string) {
	s := []byte("abcdef")
	n := copy(s[1:], s)
	t := []byte("uvwxyz")
	m := copy(t, t[4:])
	return n, string(s), m, string(t)
}""",'[.int 5, .str (ascii "aabcde"), .int 2, .str (ascii "yzwxyz")]')
t("`make` gives zeros and panics for a negative length.","""
func f() (int, byte) {
	s := make([]byte, 3)
	return len(s), s[2]
}""","[.int 3, .u8 0]")
t(None,"""
func f() int {
	n := -1
	s := make([]byte, n)
	return len(s)
}""",None)
t("`for` with `break` and `continue`: a `continue` still runs the post statement.","""
func f() (int, int) {
	sum := 0
	i := 0
	for i = 0; i < 10; i++ {
		if i == 3 {
			continue
		}
		if i == 6 {
			break
		}
		sum += i
	}
	return sum, i
}""","[.int 12, .int 6]")
t("A loop with only a condition; a loop without one.","""
func f() (int, int) {
	i := 10
	for i > 3 {
		i -= 2
	}
	j := 0
	for {
		j++
		if j == 5 {
			break
		}
	}
	return i, j
}""","[.int 2, .int 5]")
t("`break` and `continue` end the innermost loop.","""
func f() int {
	n := 0
	for i := 0; i < 3; i++ {
		for j := 0; j < 5; j++ {
			if j == 1 {
				continue
			}
			if j == 3 {
				break
			}
			n += 10*i + j
		}
	}
	return n
}""","[.int 66]")
t("`return` leaves all loops.","""
func f() int {
	for i := 0; i < 3; i++ {
		for {
			if i == 0 {
				return 42
			}
		}
	}
	return 0
}""","[.int 42]")
t("`range` gives indices and elements; the elements of a slice are read when their turn comes, those of an array are copied first.","""
func f() (int, int, int) {
	s := []byte{1, 2, 3}
	a := 0
	for i, b := range s {
		if i == 0 {
			s[2] = 50
		}
		a = a*100 + int(b) + i
	}
	n := 0
	for i := range s {
		n += i
	}
	m := 0
	for _, b := range s {
		m += int(b)
	}
	return a, n, m
}""","[.int 10352, .int 3, .int 53]")
t(None,"""
func f() int {
	var s [3]byte
	a := 0
	for i, b := range s {
		s[2] = 50
		a += int(b) + i
	}
	return a
}""","[.int 3]")
t("`range` evaluates its operand once.","""
func f() int {
	s := []byte{1, 2}
	n := 0
	for i := range s {
		s = append(s, 0)
		n += i + 1
	}
	return n
}""","[.int 3]")
t("Scopes: `:=` in a block declares a new variable, `=` assigns to the outer one.","""
func f() (int, int) {
	x := 1
	y := 1
	if x == 1 {
		x := 2
		x++
		y = x
	}
	for x := 0; x < 5; x++ {
		y += x
	}
	return x, y
}""","[.int 1, .int 13]")
t("`:=` with several names assigns to those that are there already.","""
func g() (int, int) {
	return 5, 6
}

func f() (int, int, int) {
	a, b := g()
	c, b := b, a
	return a, b, c
}""","[.int 5, .int 5, .int 6]")
t("`if` with an init statement and `else if`.","""
func g(n int) int {
	if m := n * 2; m > 10 {
		return m
	} else if m > 4 {
		return m + 100
	} else {
		return 0
	}
}

func f() (int, int, int) {
	return g(6), g(3), g(1)
}""","[.int 12, .int 106, .int 0]")
t("`switch`: the first case that matches, no falling through, `break` ends it, `default`.","""
func g(n int) int {
	r := 0
	switch n {
	case 1, 2:
		r = 10
	case 3:
		if n == 3 {
			break
		}
		r = 20
	default:
		r = 30
	}
	return r + 1
}

func f() (int, int, int, int) {
	return g(1), g(2), g(3), g(4)
}""","[.int 11, .int 11, .int 1, .int 31]")
t(None,"""
func g(n int) int {
	switch {
	case n > 10:
		return 1
	case n > 5:
		return 2
	}
	return 3
}

func f() (int, int, int) {
	return g(11), g(6), g(5)
}""","[.int 1, .int 2, .int 3]")
t("A `continue` inside a `switch` goes on with the loop.","""
func f() int {
	n := 0
	for i := 0; i < 4; i++ {
		switch i {
		case 1:
			continue
		case 2:
			break
		default:
			n += 100
		}
		n++
	}
	return n
}""","[.int 203]")
t("Assignments evaluate the right side before they store; a swap works.","""
func f() (int, int, byte, byte) {
	a := 1
	b := 2
	a, b = b, a
	s := []byte{3, 4}
	s[0], s[1] = s[1], s[0]
	return a, b, s[0], s[1]
}""","[.int 2, .int 1, .u8 4, .u8 3]")
t("The index on the left is evaluated before the assignments.","""
func f() (int, byte, byte) {
	i := 0
	s := []byte{7, 8}
	i, s[i] = 1, 9
	return i, s[0], s[1]
}""","[.int 1, .u8 9, .u8 8]")
t("Assignment operators.","""
func f() (byte, byte, byte, byte, byte, int) {
	a := byte(0xf0)
	a |= 0x0f
	b := byte(0xff)
	b &= 0x3c
	c := byte(0xff)
	c ^= 0x0f
	d := byte(1)
	d <<= 3
	e := byte(0x80)
	e >>= 7
	g := 17
	g %= 5
	g *= 3
	g--
	return a, b, c, d, e, g
}""","[.u8 0xff, .u8 0x3c, .u8 0xf0, .u8 8, .u8 1, .int 5]")
t("Named results start as zero, and `return` alone returns them.","""
func g(x int) (n int, ok bool) {
	if x > 3 {
		n = x
		ok = true
		return
	}
	if x == 3 {
		return 99, false
	}
	n++
	return
}

func f() (int, bool, int, bool, int, bool) {
	a, b := g(5)
	c, d := g(3)
	e, h := g(0)
	return a, b, c, d, e, h
}""","[.int 5, .bool true, .int 99, .bool false, .int 1, .bool false]")
t("Arguments are passed by value; the elements of a slice are shared.","""
func g(n int, s []byte, a [2]byte) {
	n = 9
	s[0] = 9
	a[0] = 9
	s = s[1:]
	s[0] = 8
}

func f() (int, byte, byte, byte) {
	n := 1
	s := []byte{1, 2}
	var a [2]byte
	g(n, s, a)
	return n, s[0], s[1], a[0]
}""","[.int 1, .u8 9, .u8 8, .u8 0]")
t("Methods: a pointer receiver changes the object, a value receiver a copy.","""
type c struct {
	n int
}

func (x *c) up() int {
	x.n++
	return x.n
}

func (x c) lost() int {
	x.n = 50
	return x.n
}

func f() (int, int, int, int) {
	p := &c{}
	a := p.up()
	b := p.up()
	d := p.lost()
	return a, b, d, p.n
}""","[.int 1, .int 2, .int 50, .int 2]")
t("Struct literals: by name in any order, missing fields are zero.","""
type c struct {
	n int
	s []byte
	b bool
	t string
}

func f() (int, bool, bool, int, string) {
	p := &c{b: true, n: 4}
	return p.n, p.s == nil, p.b, len(p.t), p.t
}""","[.int 4, .bool true, .bool true, .int 0, .str []]")
t("Functions are values; a nil one panics.","""
func twice(x int) int {
	return 2 * x
}

func app(g func(int) int, x int) int {
	return g(g(x))
}

func f() int {
	return app(twice, 5)
}""","[.int 20]")
t(None,"""
func app(g func(int) int, x int) int {
	return g(x)
}

func f() int {
	return app(nil, 5)
}""",None)
t("A method of a nil interface, and a method of a struct called through a nil pointer, panic.","""
type num interface {
	get() int
}

type one struct{}

func (o one) get() int {
	return 1
}

type box struct {
	n num
}

func f() int {
	var b box
	return b.n.get()
}""",None)
t(None,"""
type one struct{}

func (o one) get() int {
	return 1
}

func f() int {
	var p *one
	return p.get()
}""",None)
t(None,"""
type num interface {
	get() int
}

type one struct{}

func (o one) get() int {
	return 1
}

type box struct {
	n num
}

func f() (int, int) {
	b := box{one{}}
	c := box{&one{}}
	return b.n.get(), c.n.get()
}""","[.int 1, .int 1]")
t("Function literals refer to the variables around them.","""
func each(n int, g func(int)) {
	for i := 0; i < n; i++ {
		g(i)
	}
}

func f() (int, int) {
	sum := 0
	k := 3
	each(4, func(i int) {
		sum += i * k
		k = 1
	})
	return sum, k
}""","[.int 6, .int 1]",boxed='[(n! "f", [n! "sum", n! "k"])]')
t("The address of a variable.","""
func set(p *int, v int) {
	*p = v
}

func f() (int, int) {
	x := 1
	y := x
	set(&x, 5)
	return x, y
}""","[.int 5, .int 1]",boxed='[(n! "f", [n! "x"])]')
t("Recursion.","""
func fib(n int) int {
	if n < 2 {
		return n
	}
	return fib(n-1) + fib(n-2)
}

func f() int {
	return fib(10)
}""","[.int 55]")
t("Constants are exact and take the type of the other operand.","""
const big = 1000
const k = 3 * 4

func f() (byte, int, uint64, int) {
	const m = k - 2
	a := byte(k)
	return a + m, big * big, 1000 * big * 1000 * big, k / 5
}""","[.u8 22, .int 1000000, .u64 1000000000000, .int 2]")
t("Arrays of arrays and constant lengths.","""
const n = 2

func f() (uint32, uint32, int, int) {
	var a [n][2 * n]uint32
	a[1][3] = 7
	a[0] = a[1]
	a[1][3]++
	return a[0][3], a[1][3], len(a), len(a[0])
}""","[.u32 7, .u32 8, .int 2, .int 4]")
t("Array literals.","""
var tab = [...]uint16{10, 20, 30}

func f() (uint16, int, byte, byte) {
	a := [4]byte{1, 2}
	return tab[2], len(tab), a[1], a[3]
}""","[.u16 30, .int 3, .u8 2, .u8 0]")
t("A slice of an array shares it.","""
type d struct {
	buf [4]byte
}

func f() (byte, byte, int) {
	x := &d{}
	s := x.buf[1:3]
	s[0] = 5
	x.buf[2] = 6
	n := copy(x.buf[2:], "xyz")
	return x.buf[1], s[1], n
}""","[.u8 5, .u8 120, .int 2]")
t("`panic` ends the program, also from a called function.","""
func g() {
	panic("no")
}

func f() int {
	g()
	return 1
}""",None)
t("Byte order, rotation, formatting.","""
import (
	"encoding/binary"
	"math/bits"
	"fmt"
)

func f() (uint32, uint64, byte, byte, uint16, uint32, uint32, string) {
	s := []byte{1, 2, 3, 4, 5, 6, 7, 8}
	t := make([]byte, 4)
	binary.BigEndian.PutUint32(t, uint32(0x0a0b0c0d))
	u := make([]byte, 2)
	binary.LittleEndian.PutUint16(u, uint16(0x1234))
	x := uint32(0x80000001)
	return binary.LittleEndian.Uint32(s), binary.BigEndian.Uint64(s), t[0], u[0], binary.BigEndian.Uint16(s[6:]), bits.RotateLeft32(x, 4), bits.RotateLeft32(x, -1), fmt.Sprintf("%s=%d.", "n", -120)
}""",'[.u32 0x04030201, .u64 0x0102030405060708, .u8 10, .u8 0x34, .u16 0x0708, .u32 0x18, .u32 0xc0000000, .str (ascii "n=-120.")]')
t("A slice that is too short panics in package binary.","""
import "encoding/binary"

func f() uint32 {
	s := make([]byte, 4)
	return binary.LittleEndian.Uint32(s[1:])
}""",None)
t("Comments and line ends.","""
// a comment
func f() int { // one
	x := 1 + // two
		2
	y := x * 2; // three
	return y
}""","[.int 6]")

t("Multiplication of signed integers wraps around.","""
func f() (int, int) {
	a := 65536
	b := -65537
	return a * a / 2, b * 65536
}""","[.int 0, .int (-65536)]",32)
t("Comparisons of integers, of both signs and kinds.","""
func f() (bool, bool, bool, bool, bool, bool) {
	a := -3
	b := 2
	return a == b, a != b, a < b, a <= b, a > b, a >= b
}""","[.bool false, .bool true, .bool true, .bool true, .bool false, .bool false]")
t(None,"""
func f() (bool, bool, bool, bool, bool, bool) {
	a := 5
	b := 5
	return a == b, a != b, a < b, a <= b, a > b, a >= b
}""","[.bool true, .bool false, .bool false, .bool true, .bool false, .bool true]")
t(None,"""
func f() (bool, bool, bool, bool, bool, bool) {
	a := byte(200)
	b := byte(100)
	return a == b, a != b, a < b, a <= b, a > b, a >= b
}""","[.bool false, .bool true, .bool false, .bool false, .bool true, .bool true]")
t("Comparisons of strings are bytewise.","""
func f() (bool, bool, bool, bool) {
	a := "abc"
	b := "abd"
	return a == b, a != b, a == "abc", a != "abc"
}""","[.bool false, .bool true, .bool true, .bool false]")
t("`strings.Split` with an empty separator: one string per character, a byte that is not UTF-8 counts as one.","""
import (
	"strings"
)

func f() (int, string, string, string, string, string) {
	l := strings.Split("a\\xc3\\xa9\\xff\\xe2\\x90\\x83\\xf0\\x9f\\x98\\x80", "")
	return len(l), l[0], l[1], l[2], l[3], l[4]
}""","[.int 5, .str [97], .str [0xc3, 0xa9], .str [0xff], .str [0xe2, 0x90, 0x83], .str [0xf0, 0x9f, 0x98, 0x80]]")
t("Overlong forms, surrogates and values above U+10FFFF are no characters.","""
import (
	"strings"
)

func f() (int, int, int, int, int, int, int, int) {
	return len(strings.Split("\\xc1\\x81", "")), len(strings.Split("\\xe0\\x80\\x80", "")), len(strings.Split("\\xed\\xa0\\x80", "")), len(strings.Split("\\xf4\\x90\\x80\\x80", "")), len(strings.Split("\\xe2\\x90", "")), len(strings.Split("\\xed\\x9f\\xbf", "")), len(strings.Split("\\xf4\\x8f\\xbf\\xbf", "")), len(strings.Split("", ""))
}""","[.int 2, .int 3, .int 3, .int 4, .int 2, .int 1, .int 1, .int 0]")
t("Octal numbers.","""
func f() (int, int, int) {
	return 010, 0666, 0
}""","[.int 8, .int 438, .int 0]")
t("Raw strings; the texts of a file are joined by line ends.",["import \"fmt\"","","func f() (string, int, string) {","\ta := `a\\n\"b` // a `comment`","\tb := len(`one\n  two\n`)","\treturn a, b, fmt.Sprintf(`%016x`, uint64(0xabcdef0123))","}"],
 '[.str [97, 92, 110, 34, 98], .int 10, .str (ascii "000000abcdef0123")]')
t(None,["func f() int { // a comment does not\n\treturn 1","}"],"STUCK")
t("An empty slice is not nil.","""
func f() (bool, bool, bool) {
	a := make([]byte, 0)
	var b []byte
	return a == nil, b == nil, a != nil
}""","[.bool false, .bool true, .bool true]")
t("Assignments are carried out from left to right, with the places and values found before.","""
func f() (int, int, int, int) {
	x := 0
	x, x = 1, 2
	a := []int{1, 2}
	a[0], a[0] = 5, 6
	i := 0
	i, a[i] = 1, 9
	return x, a[0], a[1], i
}""","[.int 2, .int 9, .int 2, .int 1]")
t("`append` writes in place if the capacity just suffices, and not if it does not.","""
func f() (byte, byte, byte) {
	s := make([]byte, 3)
	t := append(s[:2], 9)
	u := append(s[:2], 7, 8)
	return s[2], t[2], u[2]
}""","[.u8 9, .u8 9, .u8 7]")
t("The variable of an if statement ends with it.","""
func f() int {
	x := 1
	if x := 5; x > 3 {
		x++
	} else if y := x; y > 1 {
		return y
	}
	return x
}""","[.int 1]")
t("Operands, arguments and elements are evaluated from left to right.","""
func g(s []int) int {
	s[0] = 2*s[0] + 1
	return s[0]
}

func h(a, b, c int) int {
	return a + 10*b + 100*c
}

func f() (int, int, int, int, int) {
	s := []int{0}
	t := make([]int, 4)
	t[g(s)] = g(s)
	s[0] = 0
	a := g(s) - 10*g(s)
	s[0] = 0
	b := h(g(s), g(s), g(s))
	s[0] = 0
	c := []int{g(s), g(s)}
	s[0] = 0
	d, e := g(s), g(s)
	return a, b, c[0]+10*c[1], d + 10*e, t[1]
}""","[.int (-29), .int 731, .int 31, .int 31, .int 3]")
t("Variables of the package that are assigned to.","""
const n = 2

var a = [2 * n]uint64{}
var b = []byte("xyz")
var c = 5

func g(i int) {
	a[i] = uint64(i) + 7
	c += i
}

func f() (uint64, uint64, int, int, uint64, byte) {
	g(1)
	g(3)
	s := a[:]
	s[0]++
	x := a
	a[1] = 9
	c := c + 1
	return a[0] + s[1], a[3], len(a), c, x[1], b[1]
}""","[.u64 10, .u64 10, .int 4, .int 10, .u64 8, .u8 121]",None,None,'[n! "a", n! "c"]')
t("Variables of the package with a type, and without a value.","""
type p struct {
	a int
	b [2]byte
}

var x uint16 = 65535
var y [3]uint32
var z []byte
var w p
var e error
var k byte = 3

func f() (uint16, uint32, int, bool, int, byte, bool, byte) {
	y[1]--
	w.b[1] = k << 7
	x++
	return x, y[1] + y[2], len(z), z == nil, w.a, w.b[1] + w.b[0], e == nil, k
}""","[.u16 0, .u32 4294967295, .int 0, .bool true, .int 0, .u8 128, .bool true, .u8 3]",None,None,'[n! "x", n! "y", n! "w"]')
t(None,"""
type p struct {
	a uint16
}

var x uint16 = 65535
var y [2]p
var z int

func f() (uint16, uint16, int) {
	v := x + 2
	return v, y[1].a, z
}""","[.u16 1, .u16 0, .int 0]")
t("A variable of the package that is not in memory cannot be assigned to.","""
var c = 5

func f() int {
	c = 6
	return c
}""","STUCK")
t("`bits.RotateLeft64`.","""
import "math/bits"

func f() (uint64, uint64, uint64) {
	x := uint64(0x8000000000000001)
	return bits.RotateLeft64(x, 4), bits.RotateLeft64(x, -8), bits.RotateLeft64(x, 64)
}""","[.u64 0x18, .u64 0x0180000000000000, .u64 0x8000000000000001]")
t("A function literal cannot refer to a variable that is not in memory.","""
func app(g func(int) int, x int) int {
	return g(x)
}

func f() int {
	y := 5
	return app(func(x int) int { return x + y }, 1)
}""","STUCK")
t("Parameters of one type keep their order.","""
func g(a, b, c int, d, e byte) int {
	return a*10000 + b*1000 + c*100 + int(d)*10 + int(e)
}

func f() int {
	return g(1, 2, 3, 4, 5)
}""","[.int 12345]")
t("Package `encoding/binary`, written.","""
import "encoding/binary"

func f() (byte, byte, byte, byte, byte, byte, byte, byte) {
	a := make([]byte, 8)
	b := make([]byte, 5)
	binary.LittleEndian.PutUint64(a, uint64(0x0102030405060708))
	binary.BigEndian.PutUint32(b[1:], uint32(0x11121314))
	return a[0], a[1], a[6], a[7], b[0], b[1], b[2], b[4]
}""","[.u8 8, .u8 7, .u8 2, .u8 1, .u8 0, .u8 0x11, .u8 0x12, .u8 0x14]")
t("`bytes.Compare`.","""
import "bytes"

func f() (int, int, int, int, int) {
	a := []byte("abc")
	b := []byte("abd")
	return bytes.Compare(a, b), bytes.Compare(b, a), bytes.Compare(a, a), bytes.Compare(a[:2], a), bytes.Compare(a, a[:2])
}""","[.int (-1), .int 1, .int 0, .int (-1), .int 1]")
t("Package `net` of the standard library: `IP.To4` gives the same memory, `IPMask.Size` is 0, 0 for a mask with gaps.","""
import "net"

func to4(ip net.IP) net.IP {
	return ip.To4()
}

func size(m net.IPMask) (int, int) {
	a, b := m.Size()
	return a, b
}

func f() (byte, int, bool, bool, int, int, int, int, byte) {
	a := make([]byte, 16)
	n := to4(a)
	a[10] = 255
	a[11] = 255
	a[12] = 7
	b := to4(a)
	b[3] = 9
	c, d := size([]byte{255, 254, 0, 0})
	e, g := size([]byte{255, 253, 0, 0})
	return b[0], len(b), n == nil, to4(a[:5]) == nil, c, d, e, g, a[15]
}""","[.u8 7, .int 4, .bool true, .bool true, .int 15, .int 32, .int 0, .int 0, .u8 9]")
t("Programs outside the fragment have no meaning: floating point literals, ranges over strings, constants of the wrong type.","""
func f() int {
	return 089
}""","STUCK")
t(None,"""
func f() int {
	return 1e3
}""","STUCK")
t(None,"""
func f() int {
	n := 0
	for i, c := range "abc" {
		n += i + int(c)
	}
	return n
}""","STUCK")
t(None,"""
func f() int {
	var a int = "b"
	return a
}""","STUCK")

def q(s):
    return 'r#"'+s+'"#'
out='''import Verif.Lang.Std

/-!
# Small programs

Tests of the parser and of the meaning of programs (`Lang/`): small Go programs with the results that the Go language specification
requires, written down by hand. They are run by the kernel. These are tests of what the theorems about source text rest on, not proofs
about the repository.
-/
namespace Conformance.Language

open GoLang

/-- The bytes of a string of ASCII characters. -/
def ascii (s : String) : List (BitVec 8) := s.toList.map fun c => .ofNat 8 c.toNat

/-- The outcome of a program. -/
inductive Outcome where
  | ret (vs : List Val)
  | panic
  | stuck

/-- Call `f` of the package with this text. -/
def go (W : Nat) (boxed : List (Name × List Name)) (text : List String) : Outcome :=
  match (parse ("package t" :: text)).bind fun f => loadPkg stdlib (n! "t") [f] boxed with
  | some k =>
    match run ⟨W, [k], fun _ _ => none, stdlib, fun _ _ _ => GoLang.stuck, fun n => n⟩ 40 (n! "t") 0 (n! "f") [] [] with
    | .ok vs _ => .ret vs
    | .panic _ => .panic
    | .stuck => .stuck
  | none => .stuck

/-- Call `f` of the package with this text, whose variables `vars` live in memory. -/
def goMem (vars : List Name) (W : Nat) (boxed : List (Name × List Name)) (text : List String) : Outcome :=
  match (parse ("package t" :: text)).bind fun f => loadMem stdlib (n! "t") [f] boxed vars with
  | some (k, h) =>
    match run ⟨W, [k], fun _ _ => none, stdlib, fun _ _ _ => GoLang.stuck, fun n => n⟩ 40 (n! "t") 0 (n! "f") [] h with
    | .ok vs _ => .ret vs
    | .panic _ => .panic
    | .stuck => .stuck
  | none => .stuck

'''
for doc,src,exp,W,boxed,vars in T:
    if doc: out+=f'/-! {doc} -/\n\n'
    lines=src if isinstance(src,list) else src.strip('\n').split('\n')
    ls=',\n'.join('    '+q(l) for l in lines)
    e='.panic' if exp is None else '.stuck' if exp=='STUCK' else f'.ret {exp}'
    go=f'goMem {vars}' if vars else 'go'
    out+=f'example : {go} {W or 64} {boxed or "[]"} [\n{ls}] =\n    {e} := by kernel_rfl\n\n'
out+='end Conformance.Language\n'
open('/verif/lean/Verif/Conformance/Language.lean','w').write(out)
print(len(T))
