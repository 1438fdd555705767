"""A second, independent reading of /repo/src, in Python, statement by statement, with Rust's integer types.

It is used by compare.py to cross-check the Lean model on random inputs (well-formed and ill-formed).  This is a test of the
transcription, not a proof; nothing in the Lean project depends on it.
"""
DEBUG = True


class Panic(Exception):
    pass


class Err(Exception):
    pass


def _s(bits):
    lo, hi, mod = -(1 << (bits - 1)), (1 << (bits - 1)) - 1, 1 << bits

    def f(x):
        if lo <= x <= hi:
            return x
        if DEBUG:
            raise Panic("overflow")
        return (x - lo) % mod + lo

    def cast(x):
        return (x - lo) % mod + lo
    return f, cast


i8, as_i8 = _s(8)
i32, as_i32 = _s(32)
i64, as_i64_ = _s(64)
isz, as_isz = i64, as_i64_


def usz(x):
    if 0 <= x < 1 << 64:
        return x
    if DEBUG:
        raise Panic("overflow")
    return x % (1 << 64)


def as_usz(x):
    return x % (1 << 64)


def dassert(c):
    if DEBUG and not c:
        raise Panic("assert")


def tdiv(a, b):
    if b == 0:
        raise Panic("divZero")
    if a == -2**63 and b == -1:
        raise Panic("overflow")
    q = abs(a) // abs(b)
    return q if (a < 0) == (b < 0) else -q


def trem(a, b):
    return a - tdiv(a, b) * b


def at(l, i):
    if not 0 <= i < len(l):
        raise Panic("index")
    return l[i]


def put(l, i, v):
    if not 0 <= i < len(l):
        raise Panic("index")
    l[i] = v


def rng(l, a, b):
    """bounds check of l[a..b]"""
    if not (0 <= a <= b <= len(l)):
        raise Panic("index")
    return l[a:b]


def copy_slice(dst, a, b, src):
    rng(dst, a, b)
    if b - a != len(src):
        raise Panic("index")
    dst[a:b] = src


def copy_within(l, a, b, dest):
    src = rng(l, a, b)
    if not 0 <= dest <= len(l) - (b - a):
        raise Panic("index")
    l[dest:dest + (b - a)] = src


UNIT = 10 ** 9
HALF_UNIT = UNIT // 2
MAX_UNITS, MAX_FRAC, MAX_DIGITS, D = 9, 30, 65, 9
MAX_FRAC_UNITS = (MAX_FRAC + D - 1) // D
POW10 = [10 ** i for i in range(10)]
DIV9 = [i // 9 for i in range(128)]
MOD9 = [i % 9 for i in range(128)]
BIN2CHAR = []
for _v in range(1000):
    BIN2CHAR += [0 if _v == 0 else 1 if _v < 10 else 2 if _v < 100 else 3] + list(b"%03d" % _v)
BIN2CHAR.append(0)


def div9(d):
    return at(DIV9, as_usz(d))


def mod9(d):
    return at(MOD9, as_usz(d))


def get_units(d):
    return div9(i8(d + 8))


def unit_leading_zeroes(v):
    for k in range(9):
        if v >= 10 ** (8 - k):
            return k
    return 9


def units_greater_equal(l, r):
    if len(l) > len(r):
        rr = r[::-1] + [0] * (len(l) - len(r))
        ll = l[::-1]
    else:
        ll = l[::-1] + [0] * (len(r) - len(l))
        rr = r[::-1]
    for a, b in zip(ll, rr):
        if a > b:
            return True
        if a < b:
            return False
    return True


class FD:
    def __init__(s, intg=1, frac=0, lsu=None):
        s.intg, s.frac, s.lsu = intg, frac, list(lsu) if lsu is not None else [0] * 9

    def clone(s):
        return FD(s.intg, s.frac, s.lsu)

    def assign(s, o):
        s.intg, s.frac, s.lsu = o.intg, o.frac, list(o.lsu)

    def is_neg(s):
        return (s.intg & 0x80) != 0

    def set_neg(s):
        s.intg = as_i8((s.intg & 0xff) | 0x80)

    def set_pos(s):
        s.intg = s.intg & 0x7f

    def set_neg_and_check_zero(s):
        s.set_neg()
        if s.is_zero():
            s.set_pos()

    def set_zero(s):
        s.intg, s.frac = 1, 0
        s.lsu[:] = [0] * 9

    def is_zero(s):
        return all(n == 0 for n in s.lsu)

    def digits(s):
        return s.intg & 0x7f

    def intg_units(s):
        return get_units(s.digits())

    def frac_units(s):
        return get_units(s.frac)


MAX_I64 = FD(19, 0, [854775807, 223372036, 9, 0, 0, 0, 0, 0, 0])
MIN_I64 = FD(as_i8(19 | 0x80), 0, [854775808, 223372036, 9, 0, 0, 0, 0, 0, 0])
MAX_U64 = FD(20, 0, [709551615, 446744073, 18, 0, 0, 0, 0, 0, 0])


# ---- cmp.rs
def cmp_abs_lsu(liu, lfu, l, riu, rfu, r):
    i = liu + lfu - 1
    j = riu + rfu - 1
    while liu > 0 and liu > riu:
        if at(l, as_usz(i)) > 0:
            return 1
        liu -= 1
        i -= 1
    while riu > 0 and riu > liu:
        if at(r, as_usz(j)) > 0:
            return -1
        riu -= 1
        j -= 1
    while i >= 0 and j >= 0:
        lv = at(l, i)
        rv = at(r, j)
        if lv > rv:
            return 1
        if lv < rv:
            return -1
        i -= 1
        j -= 1
    while i >= 0:
        if at(l, i) > 0:
            return 1
        i -= 1
    while j >= 0:
        if at(r, j) > 0:
            return -1
        j -= 1
    return 0


def cmp_abs(a, b):
    return cmp_abs_lsu(a.intg_units(), a.frac_units(), a.lsu, b.intg_units(), b.frac_units(), b.lsu)


def cmp(a, b):
    if a.is_neg():
        if b.is_neg():
            return cmp_abs(b, a)
        return -1
    if b.is_neg():
        return 1
    return cmp_abs(a, b)


# ---- decimal.rs conversions
def lsu_to_i64(d):
    l = d.lsu
    if d.is_neg():
        x = i32(-l[0])
        x = i64(x - i64(l[1] * UNIT))
        return i64(x - i64(i64(l[2] * UNIT) * UNIT))
    x = i64(l[0] + i64(l[1] * UNIT))
    return i64(x + i64(i64(l[2] * UNIT) * UNIT))


def lsu_to_u64(d):
    l = d.lsu
    x = usz(as_usz(l[0]) + usz(as_usz(l[1]) * UNIT))
    return usz(x + usz(usz(as_usz(l[2]) * UNIT) * UNIT))


def as_i64(d):
    if cmp(d, MIN_I64) < 0 or cmp(d, MAX_I64) > 0:
        raise Err("exceedsConversionTargetRange")
    if d.frac_units() > 0:
        t = FD()
        round_to(d, t, 0)
        return lsu_to_i64(t)
    return lsu_to_i64(d)


def as_u64(d):
    if d.is_neg() or cmp(d, MAX_U64) > 0:
        raise Err("exceedsConversionTargetRange")
    if d.frac_units() > 0:
        t = FD()
        round_to(d, t, 0)
        return lsu_to_u64(t)
    return lsu_to_u64(d)


def from_u64(src):
    fd = FD()
    i = 0
    while src != 0:
        q = src // UNIT
        r = src - q * UNIT
        put(fd.lsu, i, r)
        i += 1
        src = q
    fd.intg = as_i8(i * D)
    return fd


def from_i64(src):
    if src == -(1 << 63):
        return MIN_I64.clone()
    if src < 0:
        fd = from_u64(-src)
        fd.set_neg()
        return fd
    return from_u64(src)


def hash_writes(d):
    w = [("u8", 1 if d.is_neg() else 0)]
    iu = d.intg_units()
    w.append(("u8", iu % 256))
    fu = d.frac_units()
    w.append(("u8", fu % 256))
    for v in rng(d.lsu, 0, iu + fu):
        w.append(("u32", v % (1 << 32)))
    return w


# ---- round.rs
def round_half_up(fd, intg_units, frac_units, trunc, round_frac, carry):
    round_idx = div9(as_i8(trunc))
    round_pos = mod9(as_i8(trunc))
    clear_idx = round_idx
    if round_pos != 0:
        u = at(fd.lsu, round_idx)
        unit = 10 ** round_pos
        r = trem(u, unit)
        u = i32(u - r)
        if r >= unit // 2:
            u = i32(u + unit)
        if u >= UNIT:
            u = i32(u - UNIT)
            carry = 1
        put(fd.lsu, round_idx, u)
        round_idx += 1
    end_idx = usz(intg_units + frac_units)
    if carry > 0:
        rng(fd.lsu, round_idx, end_idx)
        for k in range(round_idx, end_idx):
            r0, c0 = add_with_carry(fd.lsu[k], 0, carry)
            fd.lsu[k] = r0
            carry = c0
            if carry == 0:
                break
        if carry > 0:
            put(fd.lsu, end_idx, 1)
            intg_units += 1
    rng(fd.lsu, 0, clear_idx)
    for k in range(clear_idx):
        fd.lsu[k] = 0
    neg = fd.is_neg()
    fd.intg = as_i8(intg_units * D)
    fd.frac = round_frac
    if neg:
        fd.set_neg()


def round_(s, frac):
    this_frac = s.frac
    intg_units = s.intg_units()
    frac_units = s.frac_units()
    if frac >= this_frac:
        rfu = get_units(as_i8(frac))
        if rfu == frac_units:
            s.frac = as_i8(frac)
            return
        dest = usz(rfu - frac_units)
        copy_within(s.lsu, 0, frac_units + intg_units, dest)
        s.frac = as_i8(frac)
        return
    carry = 0
    if frac < 0:
        intg = isz(-frac)
        if isz(intg + 1) > s.digits():
            s.set_zero()
            return
        copy_within(s.lsu, frac_units, frac_units + intg_units, 0)
        rng(s.lsu, intg_units, frac_units + intg_units)
        for k in range(intg_units, frac_units + intg_units):
            s.lsu[k] = 0
        frac_units = 0
        round_frac = 0
        trunc = intg
    else:
        round_frac = as_i8(frac)
        rfu = get_units(i8(as_i8(frac) + 1))
        if rfu < frac_units:
            if mod9(as_i8(frac)) == 0:
                if at(s.lsu, frac_units - rfu) >= HALF_UNIT:
                    carry = 1
                rfu = usz(rfu - 1)
            copy_within(s.lsu, frac_units - rfu, frac_units + intg_units, 0)
            rng(s.lsu, rfu + intg_units, frac_units + intg_units)
            for k in range(rfu + intg_units, frac_units + intg_units):
                s.lsu[k] = 0
            frac_units = rfu
        else:
            dassert(rfu == frac_units)
            if mod9(as_i8(frac)) == 0:
                if s.lsu[0] >= HALF_UNIT:
                    carry = 1
                copy_within(s.lsu, 1, frac_units + intg_units, 0)
                put(s.lsu, usz(usz(frac_units + intg_units) - 1), 0)
                frac_units = usz(frac_units - 1)
        trunc = isz(as_isz(usz(frac_units * D)) - frac)
    round_half_up(s, intg_units, frac_units, trunc, round_frac, carry)


def round_to(s, res, frac):
    res.set_zero()
    res.intg = s.intg
    this_frac = s.frac
    intg_units = s.intg_units()
    frac_units = s.frac_units()
    if frac >= this_frac:
        rfu = get_units(as_i8(frac))
        if rfu == frac_units:
            res.intg = s.intg
            res.frac = as_i8(frac)
            res.lsu[:] = s.lsu
            return
        a = usz(rfu - frac_units)
        b = usz(rfu + intg_units)
        rng(res.lsu, a, b)
        copy_slice(res.lsu, a, b, rng(s.lsu, 0, frac_units + intg_units))
        res.intg = s.intg
        res.frac = as_i8(frac)
        return
    carry = 0
    if frac < 0:
        intg = isz(-frac)
        if isz(intg + 1) > s.digits():
            res.set_zero()
            return
        copy_slice(res.lsu, 0, intg_units, rng(s.lsu, frac_units, frac_units + intg_units))
        frac_units = 0
        round_frac = 0
        trunc = intg
    else:
        round_frac = as_i8(frac)
        rfu = get_units(i8(as_i8(frac) + 1))
        if rfu < frac_units:
            if mod9(as_i8(frac)) == 0:
                if at(s.lsu, frac_units - rfu) >= HALF_UNIT:
                    carry = 1
                rfu = usz(rfu - 1)
            copy_slice(res.lsu, 0, usz(rfu + intg_units), rng(s.lsu, usz(frac_units - rfu), frac_units + intg_units))
            frac_units = rfu
        else:
            dassert(rfu == frac_units)
            if mod9(as_i8(frac)) == 0:
                if s.lsu[0] >= HALF_UNIT:
                    carry = 1
                copy_slice(res.lsu, 0, usz(frac_units + intg_units - 1), rng(s.lsu, 1, frac_units + intg_units))
                frac_units = usz(frac_units - 1)
            else:
                res.lsu[:] = s.lsu
        trunc = isz(as_isz(usz(frac_units * D)) - frac)
    round_half_up(res, intg_units, frac_units, trunc, round_frac, carry)


# ---- arith.rs
def add_with_carry(a, b, c):
    r = i32(i32(a + b) + c)
    if r >= UNIT:
        return i32(r - UNIT), 1
    return r, 0


def sub_with_borrow(a, b, w):
    r = i32(i32(a - b) + w)
    if r < 0:
        return i32(UNIT + r), -1
    return r, 0


def _finish(res, top, lhs, rhs):
    res.frac = max(lhs.frac, rhs.frac)
    fu = res.frac_units()
    while top >= 0:
        if at(res.lsu, as_usz(top + fu)) > 0:
            break
        top -= 1
    res.intg = as_i8((top + 1) * D) if top >= 0 else 0


def add_abs(lhs, rhs, res):
    res.set_zero()
    liu, lfu, riu, rfu = lhs.intg_units(), lhs.frac_units(), rhs.intg_units(), rhs.frac_units()
    diff = lfu - rfu
    li = ri = si = 0
    if diff > 0:
        copy_slice(res.lsu, 0, diff, rng(lhs.lsu, 0, diff))
        li = si = diff
    elif diff < 0:
        diff = -diff
        copy_slice(res.lsu, 0, diff, rng(rhs.lsu, 0, diff))
        ri = si = diff
    stop = si + min(liu, riu) + min(lfu, rfu)
    carry = 0
    while si < stop:
        r0, c0 = add_with_carry(at(lhs.lsu, li), at(rhs.lsu, ri), carry)
        put(res.lsu, si, r0)
        carry = c0
        li += 1
        ri += 1
        si += 1
    idf = liu - riu
    if idf > 0:
        stop = li + idf
        while li < stop:
            r0, c0 = add_with_carry(at(lhs.lsu, li), 0, carry)
            put(res.lsu, si, r0)
            carry = c0
            si += 1
            li += 1
        if carry > 0:
            put(res.lsu, si, carry)
    elif idf < 0:
        stop = ri - idf
        while ri < stop:
            r0, c0 = add_with_carry(at(rhs.lsu, ri), 0, carry)
            put(res.lsu, si, r0)
            carry = c0
            si += 1
            ri += 1
        if carry > 0:
            put(res.lsu, si, carry)
    elif carry != 0:
        put(res.lsu, si, carry)
    _finish(res, max(liu, riu) + carry, lhs, rhs)


def sub_abs(lhs, rhs, res):
    res.set_zero()
    liu, lfu, riu, rfu = lhs.intg_units(), lhs.frac_units(), rhs.intg_units(), rhs.frac_units()
    diff = lfu - rfu
    li = ri = si = 0
    borrow = 0
    if diff > 0:
        copy_slice(res.lsu, 0, diff, rng(lhs.lsu, 0, diff))
        li = si = diff
    elif diff < 0:
        diff = -diff
        for k in range(min(diff, 9)):
            r0, b0 = sub_with_borrow(0, rhs.lsu[k], borrow)
            res.lsu[k] = r0
            borrow = b0
        ri = si = diff
    stop = si + min(liu, riu) + min(lfu, rfu)
    while si < stop:
        r0, b0 = sub_with_borrow(at(lhs.lsu, li), at(rhs.lsu, ri), borrow)
        put(res.lsu, si, r0)
        borrow = b0
        si += 1
        li += 1
        ri += 1
    idf = liu - riu
    if idf > 0:
        stop = li + idf
        while li < stop:
            r0, b0 = sub_with_borrow(at(lhs.lsu, li), 0, borrow)
            put(res.lsu, si, r0)
            borrow = b0
            si += 1
            li += 1
    elif idf < 0:
        stop = ri - idf
        while ri < stop:
            r0, b0 = sub_with_borrow(0, at(rhs.lsu, ri), borrow)
            put(res.lsu, si, r0)
            borrow = b0
            si += 1
            ri += 1
    neg = borrow == -1
    if neg:
        borrow = 0
        for i in range(si):
            r0, b0 = sub_with_borrow(0, at(res.lsu, i), borrow)
            res.lsu[i] = r0
            borrow = b0
    _finish(res, max(liu, riu), lhs, rhs)
    return neg


def add_to(l, r, res):
    if l.is_zero():
        res.assign(r)
        return
    if r.is_zero():
        res.assign(l)
        return
    ln, rn = l.is_neg(), r.is_neg()
    if ln == rn:
        add_abs(l, r, res)
        if ln:
            res.set_neg_and_check_zero()
        return
    if sub_abs(l, r, res) != ln:
        res.set_neg_and_check_zero()


def sub_to(l, r, res):
    if l.is_zero():
        res.assign(r)
        if res.is_neg():
            res.set_pos()
        else:
            res.set_neg_and_check_zero()
        return
    if r.is_zero():
        res.assign(l)
        return
    ln, rn = l.is_neg(), r.is_neg()
    if ln != rn:
        add_abs(l, r, res)
        if ln:
            res.set_neg_and_check_zero()
        return
    if sub_abs(l, r, res) != ln:
        res.set_neg_and_check_zero()


def mul_abs(lhs, rhs, res):
    res.set_zero()
    rid = i8(lhs.digits() + rhs.digits())
    riu_ = get_units(rid)
    rfd = i8(lhs.frac + rhs.frac)
    rfu_ = get_units(rfd)
    if riu_ > MAX_UNITS:
        raise Err("overflow")
    if riu_ + rfu_ > MAX_UNITS:
        rfu_ = MAX_UNITS - riu_
    if rfu_ > MAX_FRAC_UNITS:
        rfu_ = MAX_FRAC_UNITS
    liu, lfu, riu, rfu = lhs.intg_units(), lhs.frac_units(), rhs.intg_units(), rhs.frac_units()
    shift = as_isz(usz(lfu + rfu - rfu_))
    carry = 0
    for ri, rv in enumerate(rng(rhs.lsu, 0, riu + rfu)):
        si = -1
        for li, lv in enumerate(rng(lhs.lsu, 0, liu + lfu)):
            si = isz(li + ri - shift)
            if si < -1:
                continue
            if si == -1:
                v = i64(lv * rv)
                if v < UNIT:
                    continue
                carry = tdiv(v, UNIT)
                continue
            v = i64(i64(i64(lv * rv) + at(res.lsu, si)) + carry)
            carry = tdiv(v, UNIT)
            put(res.lsu, si, as_i32(i64(v - i64(carry * UNIT))))
        dassert(si >= 0)
        if si + 1 < MAX_UNITS:
            put(res.lsu, as_usz(si + 1), as_i32(carry))
        elif carry > 0:
            raise Err("overflow")
        carry = 0
    res.frac = min(rfd, as_i8(rfu_ * D))
    res.intg = as_i8(riu_ * D)


def mul_to(l, r, res):
    if l.is_zero() or r.is_zero():
        res.set_zero()
        return
    n = l.is_neg() != r.is_neg()
    mul_abs(l, r, res)
    if n:
        res.set_neg_and_check_zero()


def _top(l, n):
    k = n - 1
    while k >= 0:
        if at(l, k) > 0:
            break
        k -= 1
    return k


LOOP = 1000  # compare.py skips the (ill-formed) operands that need more corrections: the Lean interpreter's stack is small


def _guess(buf1, i, d0, d1, rem):
    u0 = at(buf1, as_usz(i + 1) if rem else usz(as_usz(i) + 1))
    u1 = at(buf1, i) if i >= 0 else 0
    u = i64(i64(u0 * UNIT) + u1)
    qhat = tdiv(u, d0)
    rhat = i64(u - i64(qhat * d0))
    dassert(qhat < UNIT)
    u2 = at(buf1, i - 1) if i > 0 else 0
    n = 0
    while i64(qhat * d1) > i64(i64(rhat * UNIT) + u2):
        qhat = i64(qhat - 1)
        rhat = i64(rhat + d0)
        n += 1
        if n > LOOP:
            raise Panic("diverges")
    return qhat


def _norm(units, f, carry):
    out = []
    for v in units:
        u = i64(i64(v * f) + carry)
        carry = tdiv(u, UNIT)
        out.append(as_i32(i64(u - i64(carry * UNIT))))
    return out, carry


def div_abs(lhs, rhs, res, incr):
    res.set_zero()
    lfrac, rfrac = lhs.frac, rhs.frac
    liu = get_units(lhs.digits())
    lfu = get_units(lfrac)
    lext = lfu * D
    riu = get_units(rhs.digits())
    rfu = get_units(rfrac)
    rext = rfu * D
    rnz = _top(rhs.lsu, riu + rfu)
    if rnz < 0:
        raise Err("divisionByZero")
    lnz = _top(lhs.lsu, liu + lfu)
    if lnz < 0:
        return
    rprec = (rnz + 1) * D - unit_leading_zeroes(rhs.lsu[rnz])
    lprec = (lnz + 1) * D - unit_leading_zeroes(lhs.lsu[lnz])
    incr = isz(incr - (lext - lfrac + rext - rfrac))
    if incr < 0:
        incr = 0
    sfu = get_units(as_i8(isz(lext + rext + incr)))
    if sfu > MAX_FRAC_UNITS:
        sfu = MAX_FRAC_UNITS
    ri = (lprec - lext) - (rprec - rext)
    shift = 0
    if units_greater_equal(rng(lhs.lsu, 0, lnz + 1), rng(rhs.lsu, 0, rnz + 1)):
        ri += 1
    else:
        shift = -1
    if ri > 0:
        siu = get_units(as_i8(ri))
        if siu > MAX_UNITS:
            raise Err("overflow")
        if siu + sfu > MAX_UNITS:
            sfu = MAX_UNITS - siu
        start = sfu + siu - 1
    else:
        siu = 0
        start = sfu - get_units(as_i8(1 - ri))
        ri = 0
    units = siu + sfu
    if rnz == 0:
        d = rhs.lsu[0]
        rem = lhs.lsu[lnz] if shift < 0 else 0
        i = lnz + shift
        j = start
        while j >= 0:
            u = i64(rem * UNIT)
            if i >= 0:
                u = i64(u + at(lhs.lsu, i))
            q = tdiv(u, d)
            rem = i64(u - i64(q * d))
            put(res.lsu, j, as_i32(q))
            i -= 1
            j -= 1
        res.intg = as_i8(ri)
        res.frac = as_i8(sfu * D)
        return
    f = tdiv(UNIT, rhs.lsu[rnz] + 1)
    buf1 = [0] * 18
    buf2 = [0] * 9
    if f == 1:
        copy_slice(buf1, units, units + lnz + 1, rng(lhs.lsu, 0, lnz + 1))
        copy_slice(buf2, 0, rnz + 1, rng(rhs.lsu, 0, rnz + 1))
    else:
        end = units + lnz + 1
        rng(buf1, units, end)
        out, carry = _norm(lhs.lsu[:lnz + 1], f, 0)
        buf1[units:end] = out
        if carry > 0:
            put(buf1, end, as_i32(carry))
            carry = 0
        out, carry = _norm(rhs.lsu[:rnz + 1], f, carry)
        buf2[:rnz + 1] = out
        dassert(carry == 0)
    d0 = buf2[rnz]
    d1 = buf2[rnz - 1]
    i = units + lnz + shift
    j = start
    while j >= 0:
        qhat = _guess(buf1, i, d0, d1, False)
        ms = i - rnz
        k = 0
        carry = 0
        borrow = 0
        while k <= rnz:
            mv = i64(i64(qhat * at(buf2, k)) + carry)
            carry = tdiv(mv, UNIT)
            m0 = i64(mv - i64(carry * UNIT))
            if ms < 0:
                _, borrow = sub_with_borrow(0, as_i32(m0), borrow)
            else:
                sv, b0 = sub_with_borrow(at(buf1, ms), as_i32(m0), borrow)
                buf1[ms] = sv
                borrow = b0
            k += 1
            ms += 1
        borrow = i32(borrow + i32(at(buf1, as_usz(ms)) - as_i32(carry)))
        if borrow == -1:
            qhat = i64(qhat - 1)
            borrow = 0
            for t in range(rnz):
                r0, b0 = sub_with_borrow(0, at(buf1, as_usz(t + j)), borrow)
                put(buf1, t + j, r0)
                borrow = b0
        else:
            put(buf1, as_usz(ms), 0)
        put(res.lsu, j, as_i32(qhat))
        i -= 1
        j -= 1
    res.intg = as_i8(ri)
    res.frac = as_i8(sfu * D)


def div_to(l, r, res, incr):
    n = l.is_neg() != r.is_neg()
    div_abs(l, r, res, as_isz(incr))
    if n:
        res.set_neg_and_check_zero()


def _rem_finish(res, rn, rem_frac, rem_fu):
    if rn >= rem_fu:
        iu = as_i8(rn + 1 - rem_fu)
        # the multiplication is evaluated first, then the bounds check, then the subtraction
        prod = i8(iu * D)
        res.intg = i8(prod - unit_leading_zeroes(at(res.lsu, as_usz(i8(i8(iu + as_i8(rem_fu)) - 1)))))
    else:
        res.intg = 0
    res.frac = rem_frac


def rem_abs(lhs, rhs, res):
    res.set_zero()
    lfrac, rfrac = lhs.frac, rhs.frac
    lintg = lhs.digits()
    liu = get_units(lintg)
    lfu = get_units(lfrac)
    riu = get_units(rhs.digits())
    rfu = get_units(rfrac)
    rnz = _top(rhs.lsu, riu + rfu)
    if rnz < 0:
        raise Err("divisionByZero")
    lnz = _top(lhs.lsu, liu + lfu)
    if lnz < 0:
        return
    c = cmp_abs_lsu(liu, lfu, lhs.lsu, riu, rfu, rhs.lsu)
    if c < 0:
        if rfu > lfu:
            copy_slice(res.lsu, rfu - lfu, liu + rfu, rng(lhs.lsu, 0, lfu + liu))
            res.frac = rfrac
            res.intg = lintg
            return
        copy_slice(res.lsu, 0, lfu + liu, rng(lhs.lsu, 0, lfu + liu))
        res.frac = max(lfrac, rfrac)
        res.intg = lintg
        return
    if c == 0:
        return
    rem_frac = max(lfrac, rfrac)
    rem_fu = get_units(rem_frac)
    shift = 0 if units_greater_equal(lhs.lsu[:lnz + 1], rhs.lsu[:rnz + 1]) else -1
    ls, rs = (rfu - lfu, 0) if lfu < rfu else (0, lfu - rfu)
    if rnz == 0:
        d = rhs.lsu[0]
        buf = [0] * 18
        bl = ls + lnz + 1
        copy_slice(buf, ls, bl, lhs.lsu[:lnz + 1])
        rem = lhs.lsu[lnz] if shift < 0 else 0
        stop = rnz + rs
        i = bl - 1 + shift
        while i >= stop:
            u = i64(i64(rem * UNIT) + at(buf, as_usz(i)))
            q = tdiv(u, d)
            rem = i64(u - i64(q * d))
            i -= 1
        rn = -1
        if rem > 0:
            put(res.lsu, as_usz(i + 1), as_i32(rem))
            rn = i + 1
        while i >= 0:
            v = at(buf, i)
            put(res.lsu, i, v)
            if v > 0 and rn < 0:
                rn = i
            i -= 1
        _rem_finish(res, rn, rem_frac, rem_fu)
        return
    b1 = lnz + 1 + ls
    b2 = rnz + 1 + rs
    f = tdiv(UNIT, rhs.lsu[rnz] + 1)
    buf1 = [0] * 18
    buf2 = [0] * 18
    if f == 1:
        copy_slice(buf1, ls, b1, lhs.lsu[:lnz + 1])
        copy_slice(buf2, rs, b2, rhs.lsu[:rnz + 1])
    else:
        carry = 0
        i = 0
        while i <= lnz:
            u = i64(i64(lhs.lsu[i] * f) + carry)
            carry = tdiv(u, UNIT)
            put(buf1, i + ls, as_i32(i64(u - i64(carry * UNIT))))
            i += 1
        if carry > 0:
            put(buf1, b1, as_i32(carry))
            carry = 0
        i = 0
        while i <= rnz:
            u = i64(i64(rhs.lsu[i] * f) + carry)
            carry = tdiv(u, UNIT)
            put(buf2, i + rs, as_i32(i64(u - i64(carry * UNIT))))
            i += 1
        dassert(carry == 0)
    stop = b2 - 1
    d0 = at(buf2, rnz + rs)
    d1 = at(buf2, rnz + rs - 1)
    i = b1 + shift - 1
    while i >= stop:
        qhat = _guess(buf1, i, d0, d1, True)
        carry = 0
        borrow = 0
        lo = as_usz(i - b2 + 1)
        rng(buf1, lo, i + 1)
        rng(buf2, 0, b2)
        for k in range(b2):
            mv = i64(i64(qhat * buf2[k]) + carry)
            carry = tdiv(mv, UNIT)
            m0 = i64(mv - i64(carry * UNIT))
            sv, b0 = sub_with_borrow(buf1[lo + k], as_i32(m0), borrow)
            borrow = b0
            buf1[lo + k] = sv
        borrow = i32(borrow + i32(at(buf1, i + 1) - as_i32(carry)))
        if borrow == -1:
            borrow = 0
            for k in range(lo, i + 1):
                r0, b0 = sub_with_borrow(0, buf1[k], borrow)
                borrow = b0
                buf1[k] = r0
        put(buf1, i + 1, 0)
        i -= 1
    if DEBUG:
        dassert(at(buf1, b1) == 0)
    rem = 0
    rn = -1
    i = b1
    while i > 0:
        i -= 1
        u = i64(i64(rem * UNIT) + at(buf1, i))
        if u == 0:
            continue
        q = tdiv(u, f)
        rem = i64(u - i64(q * f))
        if q > 0:
            put(res.lsu, i, as_i32(q))
            if rn < 0:
                rn = i
    dassert(rem == 0)
    _rem_finish(res, rn, rem_frac, rem_fu)


def rem_to(l, r, res):
    n = l.is_neg()
    rem_abs(l, r, res)
    if n:
        res.set_neg_and_check_zero()


# ---- serde.rs
def from_bytes_str(s, bs, reset):
    if reset:
        s.set_zero()
    if not bs:
        raise Err("conversionSyntax")
    exp = d = 0
    dot = last = -1
    cfirst = 0
    neg = more = False
    i = -1
    for c in bs:
        i += 1
        if 48 <= c <= 57:
            last = i
            d = i8(d + 1)
            continue
        if c == 46 and dot == -1:
            dot = i
            if i == cfirst:
                cfirst += 1
            continue
        if i == 0:
            if c == 45:
                cfirst += 1
                neg = True
                continue
            if c == 43:
                cfirst += 1
                continue
        more = True
        break
    if last == -1:
        raise Err("conversionSyntax")
    if more:
        nege = False
        c = bs[i]
        if c not in (101, 69):
            raise Err("conversionSyntax")
        i += 1
        if i == len(bs):
            raise Err("conversionSyntax")
        c = bs[i]
        if c == 45:
            nege = True
            i += 1
            if i == len(bs):
                raise Err("conversionSyntax")
        elif c == 43:
            i += 1
            if i == len(bs):
                raise Err("conversionSyntax")
        while bs[i] == 48 and i != len(bs) - 1:
            i += 1
        first = i
        for c in bs[i:]:
            if c < 48 or c > 57:
                raise Err("conversionSyntax")
            exp = i32(i32(i32(exp * 10) + c) - 48)
            i += 1
        if i >= first + 4:
            raise Err("conversionSyntax")
        if (not nege and as_usz(exp) > MAX_DIGITS) or (nege and as_usz(exp) > MAX_FRAC):
            raise Err("conversionSyntax")
        if nege:
            exp = i32(-exp)
    fd = 0 if dot == -1 or last < dot else last - dot
    frac = i8(as_i8(fd) - as_i8(exp))
    hz = 0
    if frac == 0:
        digits = d
    elif frac > 0:
        if d > frac:
            digits = d
        else:
            digits = frac
            hz = i8(frac - d)
    else:
        digits = i8(d - frac)
        frac = 0
    if as_usz(digits) > MAX_DIGITS:
        raise Err("conversionSyntax")
    iu = get_units(i8(digits - frac))
    fu = get_units(frac)
    up = as_isz(usz(iu + fu - 1))
    i = cfirst
    if iu > 0:
        out = 0
        cut = i8(digits - frac)
        while True:
            c = at(bs, i)
            if c == 46:
                i += 1
                continue
            out = i32(i32(i32(out * 10) + c) - 48)
            cut = i8(cut - 1)
            if cut == 0:
                break
            if i == last:
                break
            if mod9(cut) > 0:
                i += 1
                continue
            put(s.lsu, as_usz(up), out)
            up -= 1
            out = 0
            i += 1
        i += 1
        re = mod9(cut)
        v = i32(out * POW10[re])
        put(s.lsu, as_usz(up), v)
        up -= 1
        cut = i8(cut - re)
        while cut > 0:
            put(s.lsu, as_usz(up), 0)
            up -= 1
            cut = i8(cut - D)
    if fu > 0:
        out = 0
        cut = D
        while hz >= D:
            put(s.lsu, as_usz(up), 0)
            up -= 1
            hz = i8(hz - D)
        cut = i8(cut - hz)
        while True:
            c = at(bs, i)
            if c == 46:
                i += 1
                continue
            cut = i8(cut - 1)
            out = i32(out + i32(i32(c - 48) * at(POW10, as_usz(cut))))
            if i == last:
                break
            if cut > 0:
                i += 1
                continue
            put(s.lsu, as_usz(up), out)
            up -= 1
            cut = D
            out = 0
            i += 1
        put(s.lsu, as_usz(up), out)
    s.intg = i8(digits - frac)
    s.frac = frac
    if neg:
        s.set_neg()


def d3(val, buf, elim):
    val = as_usz(val)
    if not elim:
        buf.extend(rng(BIN2CHAR, usz(usz(val * 4) + 1), usz(usz(val * 4) + 4)))
        return False
    cl = at(BIN2CHAR, usz(val * 4))
    if cl > 0:
        st = usz(usz(usz(val * 4) + 4) - cl)
        buf.extend(rng(BIN2CHAR, st, usz(st + cl)))
        return False
    return True


HIGH, MID = 10 ** 6, 10 ** 3


def append_frac(s, buf, up, fdg):
    while up >= 0:
        if fdg == 0:
            return
        u = at(s.lsu, up)
        up -= 1
        if u == 0:
            if fdg > D:
                buf.extend(b"0" * 9)
                fdg = i8(fdg - D)
                continue
            buf.extend(b"0" * max(fdg, 0))
            return
        for g in (HIGH, MID, 1):
            if g == 1 or u >= g:
                h = u if g == 1 else tdiv(u, g)
                st = usz(usz(as_usz(h) * 4) + 1)
                if fdg < 3:
                    buf.extend(rng(BIN2CHAR, st, usz(st + as_usz(fdg))))
                    return
                buf.extend(rng(BIN2CHAR, st, usz(st + 3)))
                fdg = i8(fdg - 3)
                if fdg == 0:
                    return
                if g != 1:
                    u = i32(u - i32(h * g))
            else:
                if fdg < 3:
                    buf.extend(b"0" * max(fdg, 0))
                    return
                buf.extend(b"000")
                fdg = i8(fdg - 3)
                if fdg == 0:
                    return


def append_str_buf(s, buf, frac):
    if s.is_neg():
        buf.append(45)
    iu = s.intg_units()
    fu = s.frac_units()
    up = iu + fu - 1
    if iu > 0:
        elim = True
        while up >= fu:
            u = at(s.lsu, up)
            up -= 1
            if elim and u == 0:
                continue
            if u >= HIGH:
                h = tdiv(u, HIGH)
                elim = d3(h, buf, elim)
                u = i32(u - i32(h * HIGH))
            else:
                elim = d3(0, buf, elim)
            if u >= MID:
                h = tdiv(u, MID)
                elim = d3(h, buf, elim)
                u = i32(u - i32(h * MID))
            else:
                elim = d3(0, buf, elim)
            elim = d3(u, buf, elim)
        if elim:
            buf.append(48)
    else:
        buf.append(48)
    if frac == 0:
        return
    if frac < 0:
        if fu > 0:
            buf.append(46)
            append_frac(s, buf, up, s.frac)
        return
    if fu == 0:
        buf.append(46)
        buf.extend(b"0" * frac)
        return
    full = fu * D
    if frac <= full:
        buf.append(46)
        append_frac(s, buf, up, as_i8(frac))
        return
    buf.append(46)
    append_frac(s, buf, up, as_i8(full))
    buf.extend(b"0" * (frac - full))


def to_string(s, frac):
    buf = []
    append_str_buf(s, buf, frac)
    return buf
