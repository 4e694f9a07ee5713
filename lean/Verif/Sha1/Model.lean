/-!
# Model of `/repo/lib/sha1/sha1.c`

`unsigned int` is `BitVec 32`, `unsigned char` is `BitVec 8`. The arrays `H[5]` and `W[80]` are a
structure and a function on indices; the indices used are literals, loop counters below 80, and
`lenW / 4` (shown to stay below 16 by `Inv`).
-/

namespace Ecgen.Sha1

abbrev Word := BitVec 32
abbrev Byte := BitVec 8

/-- the five chaining words -/
structure Hash where
  h0 : Word
  h1 : Word
  h2 : Word
  h3 : Word
  h4 : Word
  deriving DecidableEq, Repr

/-- `SHA_CTX`, sha1.h:38-43 -/
structure Ctx where
  H : Hash
  W : Nat → Word
  lenW : Nat
  sizeHi : Word
  sizeLo : Word

/-- `SHA_ROT`, sha1.c:37 -/
def rot (x : Word) (n : Nat) : Word := (x <<< n) ||| (x >>> (32 - n))

/-- `a[i] = v` -/
def upd (W : Nat → Word) (i : Nat) (v : Word) : Nat → Word := fun j => if j = i then v else W j

/-- the message schedule loop, sha1.c:43-46 -/
def schedule (W : Nat → Word) : Nat → Word :=
  (List.range' 16 64).foldl
    (fun W t => upd W t (rot (W (t - 3) ^^^ W (t - 8) ^^^ W (t - 14) ^^^ W (t - 16)) 1)) W

/-- the body of the four round loops, e.g. sha1.c:55-56 -/
def round (f : Word → Word → Word → Word) (k : Word) (W : Nat → Word) (s : Hash) (t : Nat) : Hash :=
  let temp := rot s.h0 5 + f s.h1 s.h2 s.h3 + s.h4 + W t + k
  { h4 := s.h3, h3 := s.h2, h2 := rot s.h1 30, h1 := s.h0, h0 := temp }

/-- `shaHashBlock`, sha1.c:39-76: the new chaining value and the new contents of `W` -/
def hashBlock (H : Hash) (W : Nat → Word) : Hash × (Nat → Word) :=
  let W := schedule W
  let s := (List.range' 0 20).foldl (round (fun b c d => ((c ^^^ d) &&& b) ^^^ d) 0x5a827999 W) H
  let s := (List.range' 20 20).foldl (round (fun b c d => b ^^^ c ^^^ d) 0x6ed9eba1 W) s
  let s := (List.range' 40 20).foldl (round (fun b c d => (b &&& c) ||| (d &&& (b ||| c))) 0x8f1bbcdc W) s
  let s := (List.range' 60 20).foldl (round (fun b c d => b ^^^ c ^^^ d) 0xca62c1d6 W) s
  ({ h0 := H.h0 + s.h0, h1 := H.h1 + s.h1, h2 := H.h2 + s.h2, h3 := H.h3 + s.h3,
     h4 := H.h4 + s.h4 }, W)

/-- `SHA1_Init`, sha1.c:78-94 -/
def init : Ctx :=
  { H := ⟨0x67452301, 0xefcdab89, 0x98badcfe, 0x10325476, 0xc3d2e1f0⟩, W := fun _ => 0, lenW := 0,
    sizeHi := 0, sizeLo := 0 }

/-- one iteration of `SHA1_Update`, sha1.c:102-110 -/
def feed (c : Ctx) (b : Byte) : Ctx :=
  let W := upd c.W (c.lenW / 4) ((c.W (c.lenW / 4) <<< 8) ||| b.setWidth 32)
  let lenW := c.lenW + 1
  let sizeLo := c.sizeLo + 8
  let sizeHi := c.sizeHi + (if sizeLo < 8 then 1 else 0)
  if lenW % 64 = 0 then
    let r := hashBlock c.H W
    { H := r.1, W := r.2, lenW := 0, sizeHi := sizeHi, sizeLo := sizeLo }
  else { c with W := W, lenW := lenW, sizeHi := sizeHi, sizeLo := sizeLo }

/-- `SHA1_Update(ctx, data, len)`, sha1.c:96-112 (`len` below `2^31`) -/
def update (c : Ctx) (data : List Byte) : Ctx := data.foldl feed c

/-- the padding loop `while (ctx->lenW != 56)`, sha1.c:131-133; `none` if it needs more than `fuel`
iterations -/
def padLoop : Nat → Ctx → Option Ctx
  | 0, c => if c.lenW = 56 then some c else none
  | n + 1, c => if c.lenW = 56 then some c else padLoop n (update c [0x00])

/-- `(unsigned char) ((x >> n) & 255)` -/
def byteOf (x : Word) (n : Nat) : Byte := ((x >>> n) &&& 255).setWidth 8

/-- the output loop for one word, sha1.c:137-140: four times the top byte, shifting left -/
def outWord (h : Word) : List Byte :=
  [(h >>> 24).setWidth 8, ((h <<< 8) >>> 24).setWidth 8, (((h <<< 8) <<< 8) >>> 24).setWidth 8,
   ((((h <<< 8) <<< 8) <<< 8) >>> 24).setWidth 8]

/-- `SHA1_Final`, sha1.c:114-144 -/
def final (fuel : Nat) (c : Ctx) : Option (List Byte) :=
  let padlen := [byteOf c.sizeHi 24, byteOf c.sizeHi 16, byteOf c.sizeHi 8, byteOf c.sizeHi 0,
    byteOf c.sizeLo 24, byteOf c.sizeLo 16, byteOf c.sizeLo 8, byteOf c.sizeLo 0]
  (padLoop fuel (update c [0x80])).map fun c =>
    let c := update c padlen
    outWord c.H.h0 ++ outWord c.H.h1 ++ outWord c.H.h2 ++ outWord c.H.h3 ++ outWord c.H.h4

end Ecgen.Sha1
