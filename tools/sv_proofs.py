#!/usr/bin/env python3
"""Generates proofs that the short_vec classes obey the laws of SV/Spec.lean and SV/LaneOps.lean.

usage: sv_proofs.py <pickle written by sv_gen.py> <directory for modules>
"""
import os
import pickle
import sys
import textwrap

D = pickle.load(open(sys.argv[1], 'rb'))
OUT = sys.argv[2]
ONLY = sys.argv[3:]

REG = {'M128': 'x0 x1 x2 x3', 'M128i': 'x0 x1 x2 x3', 'F32x4': 'x0 x1 x2 x3', 'V4d': 'x0 x1 x2 x3', 'M128d': 'x0 x1'}


def reg_lanes(r):
    if r in ('M128', 'M128i', 'F32x4', 'V4d'):
        return ['x%d' % i for i in range(4)]
    if r == 'M128d':
        return ['x0', 'x1']
    half = {'M256': 'M128', 'M256i': 'M128i', 'M256d': 'M128d', 'M512': 'M256', 'M512i': 'M256i', 'M512d': 'M256d'}[r]
    return ['x%d.%s' % (i, s) for i in range(2) for s in reg_lanes(half)]


def fields(c):
    f = c['cls']['field']
    n = f[1] if isinstance(f[1], int) and isinstance(f[0], (tuple, str)) else 1
    t = f[0]
    names = ['val'] if n == 1 else ['val%d' % i for i in range(n)]
    return names, t


def lane_exprs(c, v):
    names, t = fields(c)
    if isinstance(t, tuple) and t[0] == 'reg':
        return ['%s.%s.%s' % (v, f, s) for f in names for s in reg_lanes(t[1])]
    return ['%s.%s' % (v, f) for f in names]


SIMP_MEM = ('_mm_loadu_ps _mm_load_ps _mm_loadu_pd _mm_load_pd _mm_loadu_si128 _mm_load_si128 _mm_load_ss _mm_loadl_pd _mm_loadh_pd '
            '_mm256_loadu_ps _mm256_load_ps _mm256_loadu_pd _mm256_load_pd _mm256_loadu_si256 _mm256_load_si256 '
            '_mm512_loadu_ps _mm512_load_ps _mm512_loadu_pd _mm512_load_pd _mm512_loadu_si512 _mm512_load_epi32 '
            'vld1q_f32 vec_lda ld16 ld8 ld2x ld4 ld2').split()
SIMP_ST = ('_mm_storeu_ps _mm_store_ps _mm_stream_ps _mm_store_ss _mm_storeu_pd _mm_store_pd _mm_stream_pd _mm_storel_pd _mm_storeh_pd '
           '_mm_storeu_si128 _mm_store_si128 _mm_stream_si128 '
           '_mm256_storeu_ps _mm256_store_ps _mm256_stream_ps _mm256_storeu_pd _mm256_store_pd _mm256_stream_pd '
           '_mm256_storeu_si256 _mm256_store_si256 _mm256_stream_si256 '
           '_mm512_storeu_ps _mm512_store_ps _mm512_stream_ps _mm512_storenr_ps _mm512_storeu_pd _mm512_store_pd _mm512_stream_pd '
           '_mm512_storenr_pd _mm512_storeu_si512 _mm512_store_epi32 _mm512_stream_si512 vst1q_f32 vec_sta '
           'st lanes4 lanes2 lanes24 lanes22 lanes224 lanes222 List.cons_append List.nil_append List.append_nil').split()
SIMP_G = ('gath4 gath2x _mm256_i32gather_ps _mm256_i32gather_epi32 _mm256_i32gather_pd _mm512_i32gather_ps _mm512_i32gather_epi32 '
          '_mm512_i32gather_pd _mm512_i32logather_pd _mm512_permute4f128_epi32 '
          'SHORTVEC_INSERT_PS_AVX SHORTVEC_INSERT_PS gaddr44 gaddr88').split()
SIMP_SC = 'scat _mm512_i32scatter_ps _mm512_i32scatter_epi32 _mm512_i32scatter_pd _mm512_i32loscatter_pd _mm512_permute4f128_epi32'.split()
BIND = 'bind Option.bind Int.add_assoc Int.reduceAdd Int.add_zero'.split()
CAST = '_mm_castps_si128 _mm_castpd_si128 _mm256_castps_si256 _mm256_castpd_si256 _mm512_castps_si512 _mm512_castpd_si512'.split()

ANY = ('_mm_or_ps _mm_or_pd _mm256_or_ps _mm256_or_pd _mm512_or_ps _mm512_or_pd R4.map2 R2.map2 R4.map R2.map _mm_shuffle_ps _mm_shuffle_pd '
       '_mm_testz_si128 _mm256_testz_si256 _mm512_test_epi64_mask _mm256_extractf128_ps _mm256_extractf128_pd R4.sel R2.sel '
       '_mm_cvtss_f32 _mm_cvtsd_f64 '
       'pat_or pat_and_self truthy32 truthy64 pat_lo pat_hi pat32_eq_zero pat32_ne_zero zero_eq_b2i b2i_eq_one Nat.reduceMod Nat.reduceShiftRight '
       'Nat.reduceEqDiff if_true if_false reduceIte List.cons_append List.nil_append ofBools_ne_zero List.any List.any_cons List.any_nil id '
       'Bool.not_and Bool.not_not Bool.or_self Bool.or_false Bool.not_or Bool.or_assoc').split()


def wrap(s, ind='  ', width=128):
    out = []
    for line in s.split('\n'):
        lead = line[:len(line) - len(line.lstrip())]
        out += textwrap.wrap(line, width, initial_indent='', subsequent_indent=lead + '    ', break_long_words=False,
                             break_on_hyphens=False, drop_whitespace=True) or ['']
    return '\n'.join(out).replace('\u00a0', ' ')


class Gen:
    def __init__(self, c):
        self.c = c
        self.cargo = c['cargo']
        self.isa = c['isa']
        self.N = c['arity']
        self.w = 64 if self.cargo == 'double' else 32
        self.F = 'f64' if self.cargo == 'double' else 'f32'
        self.sz = self.w // 8
        self.mask = c['cls'].get('mask')
        self.o = []
        self.done = set()

    def emit(self, name, stmt, proof):
        self.o.append(wrap('theorem %s %s :=' % (name, stmt)))
        self.o.append(wrap(proof))
        self.o.append('')

    def app(self, cfg, fn, args):
        """Application of a function, in Option."""
        h = self.c['have'][cfg][fn]
        t = '%s E %s' % (self.c['names'][cfg][fn], args)
        return t if h['eff'] else 'some (%s)' % t

    def groups(self):
        """Configurations with the same definitions."""
        g = {}
        for cfg in self.c['cfgs']:
            key = tuple(sorted(self.c['names'][cfg].items()))
            g.setdefault(key, []).append(cfg)
        gs = list(g.values())
        return [(('' if len(gs) == 1 else '_' + cs[0]), cs) for cs in gs]

    # -- what is expected

    def lane_ops(self, cfg):
        isa, cargo = self.isa, self.cargo
        if cargo == 'int':
            if isa == 'scalar':
                return 'LaneOps.int'
            return '(LaneOps.intSimd FOps.rsqrt%s FOps.toInt%s)' % ('14' if isa == 'avx512' else '',
                                                                   'T' if (isa, self.N) == ('sse', 8) else 'R')
        if cargo == 'double':
            return 'LaneOps.qpx64' if isa == 'qpx' else '(LaneOps.ieee FEnv.f64)'
        if isa == 'scalar':
            return '(LaneOps.ieee FEnv.f32)'
        if isa == 'neon':
            return '(LaneOps.neon32 neonRecip%s neonRsqrt%s)' % (('Prec',) * 2 if 'prec' in cfg else ('', ''))
        return {'sse': 'LaneOps.sse32', 'avx': 'LaneOps.avx32', 'avx512': 'LaneOps.avx512_32', 'mic': 'LaneOps.mic32'}[isa]

    def reqs(self, cfg):
        isa, N, cargo = self.isa, self.N, self.cargo
        r = dict(any=1, aligned=1, nt=1, offsets=1, neg='true')
        if isa == 'sse':
            r.update(aligned=16, nt=16)
        if isa == 'avx':
            r.update(aligned=32, nt=32)
        if isa == 'avx512':
            r.update(aligned=64, nt=64)
        if isa == 'mic':
            r.update(aligned=64, nt=64)
        if isa == 'neon':
            r.update(aligned=4 * N, nt=None if 'lp64' in cfg else 1)
        if self.calls(cfg, 'gather', 'assertAligned 4 offsets 64'):
            r.update(offsets=64)
        if isa == 'qpx':
            r.update(any=32, aligned=32, nt=32)
        if self.calls(cfg, 'gather', 'SHORTVEC_INSERT_PS'):
            r['neg'] = 'false'
        r.update(REQS.get((isa, cargo, N), {}))
        for k, v in REQS.items():
            if k == (isa, cargo, N, cfg):
                r.update(v)
        return r

    # -- proofs

    def arith(self, cfg):
        c, N, w, F = self.c, self.N, self.w, self.F
        L = self.lane_ops(cfg)
        nm = c['names'][cfg]
        scalar_int = self.isa == 'scalar' and self.cargo == 'int'
        for fn, fld in (('opAdd', 'add'), ('opSub', 'sub'), ('opMul', 'mul'), ('opDiv', 'div'), ('opAddAssign', 'add'),
                        ('opSubAssign', 'sub'), ('opMulAssign', 'mulA'), ('opDivAssign', 'divA')):
            name = nm[fn] + '_law'
            if name in self.done:
                continue
            self.done.add(name)
            stmt = '(E : FEnv) : BinLaw V.lanes (fun a b => %s) (%s.%s E)' % (self.app(cfg, fn, 'a b'), L, fld)
            if c['have'][cfg][fn]['eff']:
                pr = '  by\n  intro a b r h0\n'
                for i in range(N):
                    pr += '  obtain ⟨c%d, r%d, e%d, h%d, q%d⟩ := map2?_cons h%d\n' % (i, i, i, i + 1, i, i)
                pr += '  have z := map2?_nil h%d\n  subst z\n' % N
                pr += ''.join('  subst q%d\n' % i for i in reversed(range(N)))
                pr += '  exact ⟨_, %s rfl, rfl⟩' % ' '.join('bindS e%d <|' % i for i in range(N))
            elif self.cargo == 'int' and fld in ('add', 'sub', 'mul', 'mulA'):
                val = 'i%s_val' % fld[:3]
                if fld[:3] == 'mul' and self.calls(cfg, fn, 'mul_epu32'):
                    pr = '  binOf (fun _ _ _ h => %s h) (fun a b => by\n    change [%s] = _\n    simp only [mul_lo]; rfl)' % (
                        val, ', '.join('(%s.setWidth 64 * %s.setWidth 64).extractLsb\' 0 32' % xy
                                       for xy in zip(lane_exprs(c, 'a'), lane_exprs(c, 'b'))))
                else:
                    pr = '  binOf (fun _ _ _ h => %s h) (fun _ _ => rfl)' % val
            else:
                pr = '  binSome (fun _ _ => rfl)'
            self.emit(name, stmt, pr)
        sq = 'ofSqrt' if 'ofSqrt' in nm else 'sqrtFn'
        arg = '⟨a⟩' if sq == 'ofSqrt' else 'a'
        name = nm[sq] + '_law'
        if name not in self.done:
            self.done.add(name)
            self.emit(name, '(E : FEnv) : UnLaw V.lanes (fun a => %s) (%s.sqrt E)' % (self.app(cfg, sq, arg), L),
                      '  unSome (fun _ => rfl)')
        name = nm['sqrt'] + '_law'
        if name not in self.done:
            self.done.add(name)
            self.emit(name, '(E : FEnv) : UnLaw V.lanes (fun a => %s) (%s.sqrt E)' % (self.app(cfg, 'sqrt', 'a'), L),
                      '  unSome (fun _ => rfl)')
        if 'opDivSqrt' in nm:
            for fn in ('opDivSqrt', 'opDivAssignSqrt'):
                name = nm[fn] + '_law'
                if name not in self.done:
                    self.done.add(name)
                    self.emit(name, '(E : FEnv) : BinLaw V.lanes (fun a b => %s) (%s.divSqrt E)' % (self.app(cfg, fn, 'a ⟨b⟩'), L),
                              '  binSome (fun _ _ => rfl)')

    def aligns(self, R, k=''):
        """Facts about the alignment of registers."""
        o = []
        sz = self.sz
        if k:
            R, sz = R['offsets'], 4
        if R == 1:
            return '', []
        o.append('  have ha : aligned %d %s %d = true := ha\n' % (sz, k or 'p', R))
        names = []
        for rl in (16, 32, 64, 128):
            if R % rl:
                continue
            for j in range(0, self.N, rl // sz):
                nm = 'a%d_%d' % (rl, j)
                names.append(nm)
                d = 'aligned_of_dvd (al\' := %d) ha (by decide)' % rl
                if j:
                    d = 'aligned_add %d (%s) (by decide)' % (j, d)
                o.append('  have %s := assertAligned_ok (%s)\n' % (nm, d))
        return ''.join(o), names

    def memory(self, cfg):
        c, N, w = self.c, self.N, self.w
        nm = c['names'][cfg]
        R = self.reqs(cfg)
        fs, _ = fields(c)
        for fn, al in (('load', 'any'), ('load_aligned', 'aligned'), ('ofPtr', 'any'), ('ofList', 'any')):
            name = nm[fn] + '_law'
            if name in self.done:
                continue
            self.done.add(name)
            isctor = fn.startswith('of')
            stmt = '(E : FEnv) %s: LoadLaw %d V.lanes (fun m p => %s) %d' % (
                '' if isctor else '(v : V) ', N, self.app(cfg, fn, 'm p' if isctor else 'm v p'), R[al])
            if fn != 'load' and nm['load'] + '_law' in self.done and R[al] == R['any'] and self.calls(cfg, fn, 'load E'):
                self.emit(name, stmt, '  by\n  intro m p g ha h\n  obtain ⟨v, h1, h2⟩ := %s_law E %s m p g ha h\n'
                          '  exact ⟨v, bindS h1 rfl, h2⟩' % (nm['load'], 'v' if not isctor else '_'))
                continue
            if self.isa == 'scalar':
                self.emit(name, stmt, '  by\n  intro m p g _ h\n%s  exact ⟨_, %s rfl, rfl⟩' % (
                    self.split('h', 'h'), ' '.join('bindS h%d <|' % i for i in range(N))))
                continue
            pr, an = self.aligns(R[al])
            pr = '  by\n  intro m p g ha h\n' + pr
            if self.isa == 'mic' and fn == 'load':
                pr += self.mic_load(cfg)
            else:
                if self.isa == 'qpx':
                    pr += self.qpx_addr()
                pr += '  have h := at%d h\n' % N
                pr += '  exact ⟨_, by simp only [%s] <;> rfl, rfl⟩' % ', '.join(
                    [nm[fn], nm['load']] + SIMP_MEM + BIND + ['h'] + an + (['vec_ld'] + ['q%d' % i for i in range(0, N, 4)] if self.isa == 'qpx' else []))
            self.emit(name, stmt, pr)
        for fn, al in (('store', 'any'), ('store_aligned', 'aligned'), ('store_nt', 'nt'), ('opStore', 'any')):
            name = nm[fn] + '_law'
            if name in self.done or R[al] is None:
                continue
            self.done.add(name)
            stmt = '(E : FEnv) : StoreLaw %d V.lanes (fun v p => %s) %d' % (
                N, self.app(cfg, fn, 'p v' if fn == 'opStore' else 'v p'), R[al])
            if fn == 'opStore' or (fn != 'store' and self.calls(cfg, fn, 'store E') and R[al] == R['any']):
                self.emit(name, stmt, '  by\n  intro m v p ha h\n  obtain ⟨ws, m\', h1, h2⟩ := %s_law E m v p ha h\n'
                          '  exact ⟨ws, m\', bindS h1 rfl, h2⟩' % (nm['store']))
                continue
            if self.isa == 'scalar':
                self.emit(name, stmt, '  storeOf (fun _ => rfl) fun v p _ => by\n  dsimp only [%s, V.lanes, st]\n'
                          '  simp only [List.cons_append, List.nil_append, Int.add_assoc, Int.reduceAdd, Int.add_zero]' % nm[fn])
                continue
            if self.isa == 'mic' and fn == 'store':
                self.emit(name, stmt, self.mic_store(cfg))
                continue
            pr, an = self.aligns(R[al])
            pr = '  storeOf (fun _ => rfl) fun v p ha => by\n' + pr
            if self.isa == 'qpx':
                pr += self.qpx_addr()
            pr += '  change _ = some (st p [%s])\n' % ', '.join(lane_exprs(c, 'v'))
            pr += '  simp only [%s]' % ', '.join([nm[fn], nm['store']] + SIMP_ST + BIND + an
                                                + (['vec_st'] + ['q%d' % i for i in range(0, N, 4)] if self.isa == 'qpx' else []))
            self.emit(name, stmt, pr)
        # gather and scatter
        name = nm['gather'] + '_law'
        if name not in self.done:
            self.done.add(name)
            stmt = '(E : FEnv) (v : V) : GatherLaw %d V.lanes (fun m mo p o => %s) %d %s' % (
                N, self.app(cfg, 'gather', 'm mo v p o'), R['offsets'], R['neg'])
            if self.isa == 'scalar':
                ob = self.split('o', 'ho') + self.split('g', 'hg')
                self.emit(name, stmt, '  by\n  intro m mo p o off g ha hn ho hg\n%s  exact ⟨_, %s rfl, rfl⟩' % (
                    ob, ' '.join('bindS o%d <| bindS g%d <|' % (i, i) for i in range(N))))
            elif self.isa == 'neon':
                ob = self.split('o', 'ho') + self.split('g', 'hg')
                v = ', '.join('⟨' + ', '.join('g %d' % (4 * r + i) for i in range(4)) + '⟩' for r in range(N // 4))
                self.emit(name, stmt, '  by\n  intro m mo p o off g ha hn ho hg\n%s  exact ⟨⟨%s⟩, %s rfl, rfl⟩' % (
                    ob, v, ' '.join('bindS o%d <| bindS g%d <| bindS rfl <|' % (i, i) for i in range(N))))
            else:
                pr, an = self.aligns(R, 'o')
                pr = '  by\n  intro m mo p o off g ha hn ho hg\n' + pr
                if R['offsets'] == 32:
                    pr += '  obtain ⟨b, hb⟩ := micOffsets (a := uninit) ha ho\n'
                    an = ['hb']
                pr += '  have ho := at%d ho\n  have hg := all%d hg\n' % (N, N)
                if R['neg'] == 'false':
                    pr += '  have hn := all%d fun k hk => not_msb (hn rfl k hk)\n' % N
                pr += '  exact ⟨_, by simp only [%s] <;> rfl, rfl⟩' % ', '.join(
                    [nm['gather']] + SIMP_MEM + SIMP_G + BIND + ['ho', 'hg'] + an + (['hn', 'Bool.false_eq_true', 'if_false']
                                                                                    if R['neg'] == 'false' else []))
                self.emit(name, stmt, pr)
        name = nm['scatter'] + '_law'
        if name not in self.done:
            self.done.add(name)
            stmt = '(E : FEnv) : ScatterLaw %d V.lanes (fun mo v p o => %s) %d' % (
                N, self.app(cfg, 'scatter', 'mo v p o'), R['offsets'])
            if self.isa == 'scalar':
                self.emit(name, stmt, '  by\n  intro mo v p o off ha ho\n%s  refine %s ?_\n%s  rfl' % (
                    self.split('o', 'ho'), ' '.join('bindS o%d <|' % i for i in range(N)),
                    '' if N == 1 else '  simp only [List.cons_append, List.nil_append]\n'))
            else:
                pr, an = self.aligns(R, 'o')
                pr = '  by\n  intro mo v p o off ha ho\n' + pr
                if R['offsets'] == 32:
                    pr += '  obtain ⟨b, hb⟩ := micOffsets (a := uninit) ha ho\n'
                    an = ['hb']
                pr += '  have ho := at%d ho\n' % N
                pr += '  simp only [%s]\n  rfl' % ', '.join(
                    [nm['scatter']] + SIMP_MEM + SIMP_ST + SIMP_SC + BIND
                    + ['ho', 'List.zipWith', 'gaddr44', 'gaddr88'] + an)
                self.emit(name, stmt, pr)
        name = nm['print'] + '_law'
        if name not in self.done and (self.isa, N) != ('qpx', 32):
            self.done.add(name)
            self.emit(name, '(E : FEnv) : PrintLaw V.lanes (%s E)' % nm['print'], '  fun _ => rfl')

    def mic_load(self, cfg):
        n = 64 // self.sz
        fs, _ = fields(self.c)
        pr, ch = '', ''
        for r, f in enumerate(fs):
            pr += ('  obtain ⟨b%d, l%d, u%d⟩ := micLoad%d (m := m) (a := v.%s) (p := p + %d) (q := p + %d)\n'
                   '    (g := fun k => g (%d + k)) (by omega) fun k hk => by\n'
                   '      rw [← h (%d + k) (by omega)]; congr 1; push_cast; omega\n' % (
                       r, r, r, n, f, n * r, n * r + n, n * r, n * r))
            ch += 'bindS l%d <| bindS u%d <| ' % (r, r)
        return pr + '  exact ⟨_, %srfl, rfl⟩' % ch

    def mic_store(self, cfg):
        n = 64 // self.sz
        fs, _ = fields(self.c)
        pr = '  storeOfPerm (fun _ => rfl) fun v p _ => ⟨_, rfl, by\n'
        for r, f in enumerate(fs):
            pr += '    have e%d := micStore%d (p := p + %d) (q := p + %d) (a := v.%s) (by omega)\n' % (r, n, n * r, n * r + n, f)
        pr += '    change List.Perm _ (st p (%s%s))\n' % (' ++ ('.join('lanes v.' + f for f in fs), ')' * (len(fs) - 1))
        t = 'e0'
        for r in range(1, len(fs)):
            t = '%s.append e%d' % (t if r == 1 else '(' + t + ')', r)
        pr += '    have e := %s\n' % t
        S = 'st_app%d, Int.add_assoc, Int.reduceAdd, Int.add_zero, List.append_assoc' % n
        pr += '    simp only [%s] at e ⊢\n    exact e⟩' % S
        return pr

    def has_cmp(self):
        return all(f in self.c['variants'] for f in ('opLt', 'blend', 'any', 'opIndex'))

    def kind(self):
        return '(MaskKind.vec : MaskKind V V)' if self.mask == 'V' else '(MaskKind.bits %d : MaskKind V (BitVec %d))' % (
            (self.mask[1],) * 2)

    def compare(self, cfg):
        c, N, w, F = self.c, self.N, self.w, self.F
        nm = c['names'][cfg]
        K = self.kind()
        bits = self.mask != 'V'
        for fn in ('opLt', 'opLe', 'opEq', 'opGt', 'opGe'):
            name = nm[fn] + '_law'
            if name in self.done:
                continue
            self.done.add(name)
            f = fn[2:].lower()
            stmt = '(E : FEnv) : CmpLaw V.lanes %s (fun a b => %s) E.%s.%s' % (K, self.app(cfg, fn, 'a b'), F, f)
            if not bits:
                self.emit(name, stmt, '  fun _ _ => ⟨_, rfl, rfl⟩')
                continue
            la, lb = lane_exprs(c, 'a'), lane_exprs(c, 'b')
            cs = ['E.%s.%s %s %s' % (F, f, x, y) for x, y in zip(la, lb)]
            mb = self.mask[1]
            res = '(ofBools 32 [%s])' % ', '.join(cs)
            if mb < 32:
                res += '.setWidth %d' % mb
            pr = '  by\n  intro a b\n  refine ⟨%s, ?_, Nat.le_of_ble_eq_true rfl, fun i => %s⟩\n' % (
                res, 'repOf _ (Nat.le_of_ble_eq_true rfl) (by decide) i' if mb < 32 else 'ofBools_getLsbD _ _ (Nat.le_of_ble_eq_true rfl) i')
            if self.isa == 'scalar':
                if N == 1:
                    pr += '  change some ((b2i _).setWidth 8) = _\n  rw [← BitVec.shiftLeft_zero (b2i _), mask0]'
                else:
                    pr += '  dsimp only [%s]\n  rw [mask0]\n  exact %s rfl' % (
                        nm[fn], ' '.join('bindS (mask%d %s) <|' % (k, '_ ' * (k + 1)) for k in range(1, N)))
            else:
                n = 16 if w == 32 else 8
                e = ['_mm512_cmp_%s_mask E a.%s b.%s _CMP_%s' % ('ps' if w == 32 else 'pd', x, x, f.upper() + (
                    '_OQ' if f == 'eq' else '_OS')) for x in fields(c)[0]]
                pr += '  have p0 : promote (%s) <<< 0 = ofBools 32 [%s] := by\n' % (e[0], ', '.join(cs[:n]))
                pr += '    rw [BitVec.shiftLeft_zero]; exact promote_ofBools _ (Nat.le_of_ble_eq_true rfl) (by decide)\n'
                pr += '  dsimp only [%s]\n  rw [p0]\n' % nm[fn]
                if len(e) > 1:
                    pr += '  exact %s rfl' % ' '.join(
                        'bindS (maskJoin %d [%s] [%s] (Nat.le_of_ble_eq_true rfl) (by decide) (Nat.le_of_ble_eq_true rfl) (Nat.le_of_ble_eq_true rfl)) <|' % (
                            n, ', '.join(cs[:n * r]), ', '.join(cs[n * r:n * r + n])) for r in range(1, len(e)))
                else:
                    pr = pr.rstrip('\n')
            self.emit(name, stmt, pr)
        # blend
        name = nm['blend'] + '_law'
        bs = ['b%d' % i for i in range(N)]
        if name not in self.done:
            self.done.add(name)
            stmt = '(E : FEnv) : BlendLaw %d V.lanes %s (%s E)' % (N, K, nm['blend'])
            pr = '  by\n  intro a m b bs hl hr\n  obtain ⟨%s, rfl⟩ := len%d hl\n' % (', '.join(bs), N)
            la, lb, lm = lane_exprs(c, 'a'), lane_exprs(c, 'b'), lane_exprs(c, 'm')
            if not bits:
                pr += self.pats('m', bs)
                if self.calls(cfg, 'blend', 'blendv'):
                    pr += '  change [%s] = _\n' % ', '.join('if %s.msb then %s else %s' % z for z in zip(lm, lb, la))
                    pr += '  simp only [hr, pat_msb%d] <;> rfl' % w
                else:
                    pr += '  change [%s] = _\n' % ', '.join('%s &&& %s ||| ~~~%s &&& %s' % (z, y, z, x) for z, y, x in zip(lm, lb, la))
                    pr += '  simp only [hr, pat_sel] <;> rfl'
            else:
                pr += '  have hr := rep%d hr.2\n' % N
                if self.isa == 'scalar':
                    pr += '  dsimp only [%s, V.lanes]\n  simp only [%s, hr] <;> rfl' % (nm['blend'], ', '.join(
                        ('bit%d' if self.mask[1] == 32 else 'pbit%d') % k for k in range(N)))
                else:
                    pr += ('  dsimp only [%s, _mm512_mask_blend_ps, _mm512_mask_blend_pd, blendAt4, blendAt2, pick]\n'
                           '  simp only [psh8, psh16, sel8, sel16, selLo, promote_get, Nat.reduceAdd, Nat.reduceLT, Nat.zero_add, Nat.add_zero, '
                           'decide_true, Bool.true_and, hr] <;> rfl' % nm['blend'])
            self.emit(name, stmt, pr)
        name = nm['any'] + '_law'
        if name not in self.done:
            self.done.add(name)
            stmt = '(E : FEnv) : AnyLaw %d V.lanes (MaskKind.vec : MaskKind V V) (%s E)' % (N, nm['any'])
            pr = '  by\n  intro m bs hl hr\n  obtain ⟨%s, rfl⟩ := len%d hl\n' % (', '.join(bs), N)
            pr += self.pats('m', bs)
            pr += ('  dsimp only [%s]\n  simp only [%s]\n' % (nm['any'], ', '.join(CAST + ANY + ['hr'])))
            if self.isa == 'avx512':
                pr += '  rw [ofBools_ne_zero _ (Nat.le_of_ble_eq_true rfl)]\n'
                pr += '  simp only [List.any_cons, List.any_nil, id, Bool.or_false, Bool.or_assoc]\n'
            pr += '  try ac_rfl'
            self.emit(name, stmt, pr)
        name = nm['opIndex'] + '_law'
        if name not in self.done:
            self.done.add(name)
            stmt = '(E : FEnv) : IndexLaw %d V.lanes (fun v i => %s)' % (N, self.app(cfg, 'opIndex', 'v i'))
            self.emit(name, stmt, '  fun _ => ofAll%d %s' % (N, 'rfl' if N == 1 else '⟨' + ', '.join(['rfl'] * N) + '⟩'))

    def record(self, suf, cfgs, M, P):
        """The interface record, and the theorem that it obeys the laws."""
        c, N, w, F = self.c, self.N, self.w, self.F
        cfg = cfgs[0]
        nm = c['names'][cfg]
        ns = c['ns']
        L, R = self.lane_ops(cfg), self.reqs(cfg)
        sq = 'ofSqrt' if 'ofSqrt' in nm else 'sqrtFn'
        sqarg = '⟨%s⟩' if sq == 'ofSqrt' else '%s'
        M.append('namespace %s' % ns)
        M.append('/-- %s, if compiled for %s. -/' % (c['path'], ', '.join(cfgs)))
        M.append('def impl%s : Impl %d where' % (suf, w))
        fl = [('N', str(N)), ('V', 'V'), ('lanes', 'V.lanes'), ('bcast', nm['bcast'])]
        for f, fn in (('add', 'opAdd'), ('sub', 'opSub'), ('mul', 'opMul'), ('div', 'opDiv'), ('addA', 'opAddAssign'),
                      ('subA', 'opSubAssign'), ('mulA', 'opMulAssign'), ('divA', 'opDivAssign')):
            fl.append((f + ' E a b', self.app(cfg, fn, 'a b')))
        fl.append(('sqrt E a', self.app(cfg, sq, sqarg % 'a')))
        fl.append(('sqrtM E a', self.app(cfg, 'sqrt', 'a')))
        own = 'opDivSqrt' in nm
        for f, fn, d in (('divSqrt', 'opDivSqrt', 'opDiv'), ('divSqrtA', 'opDivAssignSqrt', 'opDivAssign')):
            if own:
                fl.append((f + ' E a b', self.app(cfg, fn, 'a ⟨b⟩')))
            else:
                fl.append((f + ' E a b', self.app(cfg, d, 'a (%s E %s)' % (nm[sq], sqarg % 'b'))))
        for f, fn, a in (('load E m v p', 'load', 'm v p'), ('loadA E m v p', 'load_aligned', 'm v p'), ('ofPtr E m p', 'ofPtr', 'm p'),
                         ('ofList E m p', 'ofList', 'm p'), ('store E v p', 'store', 'v p'), ('storeA E v p', 'store_aligned', 'v p'),
                         ('storeNT E v p', 'store_nt', 'v p'), ('shl E v p', 'opStore', 'p v'),
                         ('gather E m mo v p o', 'gather', 'm mo v p o'), ('scatter E mo v p o', 'scatter', 'mo v p o')):
            fl.append((f, self.app(cfg, fn, a)))
        fl.append(('print', nm['print']))
        M += [wrap('  %s := %s' % x) for x in fl]
        M.append('')
        if self.has_cmp():
            M.append('/-- Comparisons of %s. -/' % c['path'])
            M.append('def cmp%s : Cmp impl%s where' % (suf, suf))
            M.append('  M := %s' % ('V' if self.mask == 'V' else 'BitVec %d' % self.mask[1]))
            M.append('  kind := %s' % ('.vec' if self.mask == 'V' else '.bits %d' % self.mask[1]))
            for f in ('lt', 'le', 'eq', 'gt', 'ge'):
                M.append('  %s E a b := %s' % (f, self.app(cfg, 'op' + f.capitalize(), 'a b')))
            M.append('  blend := %s\n  vany := %s\n  index E v i := %s' % (nm['blend'], nm['any'], self.app(cfg, 'opIndex', 'v i')))
            M.append('')
        M.append('end %s\n' % ns)
        P.append('namespace %s' % ns)
        bl = ['fun E => %s_law E' % nm[f] for f in ('opAdd', 'opSub', 'opMul', 'opDiv', 'opAddAssign', 'opSubAssign', 'opMulAssign',
                                                    'opDivAssign', sq, 'sqrt')]
        if own:
            bl += ['fun E => %s_law E' % nm[f] for f in ('opDivSqrt', 'opDivAssignSqrt')]
        else:
            bl += ['fun E => (divOf (%s_law E) (%s_law E) :)' % (nm[f], nm[sq]) for f in ('opDiv', 'opDivAssign')]
        P.append(wrap('theorem arith%s : Arith impl%s %s :=\n  ⟨len_law, bcast_law, %s⟩' % (suf, suf, L, ', '.join(bl))))
        P.append('')
        nt = '(some %d)' % R['nt'] if R['nt'] else 'none'
        Rs = '⟨%d, %d, %s, %d, %s⟩' % (R['any'], R['aligned'], nt, R['offsets'], R['neg'])
        ml = ['%s_law' % nm[f] for f in ('load', 'load_aligned', 'ofPtr', 'ofList', 'store', 'store_aligned')]
        ml.append('fun E => ntOf (%s_law E)' % nm['store_nt'] if R['nt'] else 'fun _ _ h => (nomatch h)')
        ml += ['%s_law' % nm[f] for f in ('opStore', 'gather', 'scatter')]
        P.append(wrap('theorem mem%s : MemLaws impl%s %s :=\n  ⟨%s⟩' % (suf, suf, Rs, ', '.join(ml))))
        P.append('')
        if nm['print'] + '_law' in self.done:
            P.append('theorem printLaw%s (E : FEnv) : PrintLaw impl%s.lanes (impl%s.print E) := %s_law E\n' % (suf, suf, suf, nm['print']))
        if self.has_cmp():
            cl = ['%s_law' % nm[f] for f in ('opLt', 'opLe', 'opEq', 'opGt', 'opGe', 'blend')]
            cl.append('%s_law' % nm['any'] if self.mask == 'V' else 'fun E => anyBits (%s E)' % nm['any'])
            cl += ['%s_law' % nm['any'], '%s_law' % nm['opIndex']]
            P.append(wrap('theorem cmpLaws%s : CmpLaws cmp%s FEnv.%s :=\n  ⟨%s⟩' % (suf, suf, F, ', '.join(cl))))
            P.append('')
        P.append('end %s\n' % ns)
        st = c['cls'].get('strategy')
        e = '⟨%s.impl%s, %s, %s⟩' % (ns.split('.')[-1], suf, 'some %s.cmp%s' % (ns.split('.')[-1], suf) if self.has_cmp() else 'none',
                                    'some .%s' % st if st else 'none')
        q = '%s.%%s%s' % (ns.split('.')[-1], suf)
        for g in cfgs:
            PROOFS.setdefault(self.cargo, {}).setdefault(g, []).append((N, q))
            TABLE.setdefault(self.cargo, {}).setdefault(g, []).append((N, e))

    def pats(self, v, bs):
        ls = lane_exprs(self.c, v)
        return ('  change [%s] = [%s] at hr\n  simp only [List.cons.injEq, and_true] at hr\n' % (
            ', '.join(ls), ', '.join('pat %d %s' % (self.w, b) for b in bs)))

    def qpx_addr(self):
        return '  have hq := qpxAddr ha\n' + ''.join(
            '  have q%d : (p%s) / 4 * 4 = p%s := by omega\n' % (i, ' + %d' % i if i else '', ' + %d' % i if i else '')
            for i in range(0, self.N, 4))

    def split(self, x, h):
        return '  obtain %s := all%d %s\n' % (', '.join('%s%d' % (x, i) for i in range(self.N)) if self.N == 1 else
                                             '⟨' + ', '.join('%s%d' % (x, i) for i in range(self.N)) + '⟩', self.N, h)

    def calls(self, cfg, fn, what):
        return any(what in ' '.join(k[1]) for k, cs in self.c['variants'][fn].items() if cfg in cs)

    def generate(self):
        c, N, w = self.c, self.N, self.w
        self.o.append('namespace %s' % c['ns'])
        self.o.append('')
        self.emit('len_law', ': LenLaw %d V.lanes' % N, '  fun _ => rfl')
        self.emit('bcast_law', '(E : FEnv) : BcastLaw %d V.lanes (bcast E)' % N, '  fun _ => rfl')
        for suf, cfgs in self.groups():
            cfg = cfgs[0]
            self.arith(cfg)
            self.memory(cfg)
            if self.has_cmp():
                self.compare(cfg)
        self.o.append('end %s' % c['ns'])
        self.o.append('')
        return '\n'.join(self.o)


REQS = {('mic', 'double', 8): dict(offsets=32)}

mods = {}
for k in sorted(D, key=lambda k: (k[0], k[1], k[2])):
    c = D[k]
    mod = c['ns'].split('.')[-1].rstrip('0123456789')
    if mod == 'Avx':
        raise Exception
    mods.setdefault(mod, []).append(c)

TABLE, PROOFS = {}, {}
CFGS = 'scalar qpx neon neon_lp64 neon_prec neon_prec_lp64 mic avx512f avx avx2 sse sse2 sse41'.split()


def write(mod, o, sub='SVP'):
    with open(os.path.join(OUT, '..', sub, mod + '.lean'), 'w') as f:
        f.write('\n'.join(o))


OPT = ['set_option autoImplicit false', 'set_option linter.unusedSimpArgs false', 'set_option linter.unusedVariables false',
       'set_option maxRecDepth 100000', 'open LFA.SV', '']
allM = ['/-', '  Generated by tools/sv_proofs.py: the interface records of all classes, and which class provides short_vec<T, N> for which',
        '  target (short_vec.hpp:170-330 selects the widest instruction set, the headers in detail/ are guarded accordingly).', '-/']
allM += ['import Verif.SV.%s' % m for m in mods] + ['import Verif.SV.Impl'] + OPT
allP = ['/-', '  Generated by tools/sv_proofs.py: each interface record obeys the laws.', '-/']
allP += ['import Verif.SVP.%s' % m for m in mods] + ['import Verif.SV.Impls', 'import Verif.SV.Targets'] + OPT
for mod, cs in mods.items():
    o = ['/-', '  Generated by tools/sv_proofs.py: the classes of SV/%s.lean obey the laws of SV/Spec.lean.' % mod, '-/',
         'import Verif.SV.%s' % mod, 'import Verif.SV.LaneOps', 'import Verif.SV.Unroll'] + OPT
    for c in cs:
        g = Gen(c)
        o.append(g.generate())
        for suf, cfgs in g.groups():
            g.record(suf, cfgs, allM, allP)
    if not ONLY or mod in ONLY:
        write(mod, o)
if not ONLY or 'Laws' in ONLY:
    allM.append('namespace LFA.SV\n')
    for cargo, w in (('float', 32), ('double', 64), ('int', 32)):
        allM.append('/-- The specializations of `short_vec<%s, ARITY>` which are defined if compiled for a target. -/' % cargo)
        allM.append('def %sVecs : Cfg → List (Entry %d)' % (cargo, w))
        for g in CFGS:
            es = sorted(TABLE[cargo].get(g, []))
            allM.append(wrap('  | .%s => [%s]' % (g, ', '.join(e for _, e in es))))
        allM.append('')
    allM.append('end LFA.SV\n')
    write('Impls', allM, 'SV')
    allP.append('namespace LFA.SV\n')
    for cargo, w in (('float', 32), ('double', 64), ('int', 32)):
        for th, law, pr in (('arith', 'Arith e.impl (%sOps c e.impl.N)' % cargo, 'arith'),
                            ('mem', 'MemLaws e.impl (%sReqs c e.impl.N)' % cargo, 'mem')):
            allP.append(wrap('theorem %s_%s : ∀ c, ∀ e ∈ %sVecs c, %s' % (cargo, th, cargo, law)))
            for g in CFGS:
                t = 'List.forall_mem_nil _'
                for _, q in reversed(sorted(PROOFS[cargo][g])):
                    t = 'List.forall_mem_cons.2 ⟨%s, %s⟩' % (q % pr, t)
                allP.append(wrap('  | .%s => %s' % (g, t)))
            allP.append('')
    for cargo, w in (('float', 32), ('double', 64)):
        allP.append('theorem %s_cmp : ∀ c, ∀ e ∈ %sVecs c, ∀ C, e.cmp = some C → CmpLaws C FEnv.%s' % (
            cargo, cargo, 'f%d' % w))
        for g in CFGS:
            t = 'List.forall_mem_nil _'
            for (_, q), (_, e) in reversed(list(zip(sorted(PROOFS[cargo][g]), sorted(TABLE[cargo][g])))):
                t = 'List.forall_mem_cons.2 ⟨%s, %s⟩' % (
                    'fun _ h => (nomatch h)' if ', none, ' in e else 'cmpOf %s' % (q % 'cmpLaws'), t)
            allP.append(wrap('  | .%s => %s' % (g, t)))
        allP.append('')
    for cargo, w in (('float', 32), ('double', 64), ('int', 32)):
        ex = cargo == 'double'
        allP.append(wrap('theorem %s_print : ∀ c, ∀ e ∈ %sVecs c, %s∀ E, PrintLaw e.impl.lanes (e.impl.print E)' % (
            cargo, cargo, '(c = .qpx → e.impl.N ≠ 32) → ' if ex else '')))
        for g in CFGS:
            t = 'List.forall_mem_nil _'
            for _, q in reversed(sorted(PROOFS[cargo][g])):
                pr = q % 'printLaw'
                if 'QpxDouble32' in q:
                    pr = 'fun h => absurd rfl (h rfl)'
                elif ex:
                    pr = 'fun _ => ' + pr
                t = 'List.forall_mem_cons.2 ⟨%s, %s⟩' % (pr, t)
            allP.append(wrap('  | .%s => %s' % (g, t)))
        allP.append('')
    allP.append('end LFA.SV\n')
    write('Laws', allP)
