#!/usr/bin/env python3
"""Translate the unit tests of the library into Lean examples about the model.

usage: gen_conformance.py /repo/test OUTDIR

Every TEST_F becomes one `example`, checked by kernel evaluation of the model on the test's own bytes.
Expectations that the model has no counterpart for (text dumps) are listed as comments.
"""
import re, sys, os

OPT = set('''svc_extension nal_hrd_parameters vcl_hrd_parameters slice_header slice_header_in_scalable_extension
prefix_nal_unit_svc sps pps slice_layer_without_partitioning_rbsp prefix_nal_unit subset_sps slice_layer_extension_rbsp
checksum ref_pic_list_modification pred_weight_table dec_ref_pic_marking vui_parameters
seq_parameter_set_svc_extension rtp_single rtp_stapa rtp_fua'''.split())
PWT = {'luma_weight_l0_flag': 'lumaFlags {}.l0', 'luma_weight_l0': 'lumaWeights {}.l0', 'luma_offset_l0': 'lumaOffsets {}.l0',
       'luma_weight_l1_flag': 'lumaFlags {}.l1', 'luma_weight_l1': 'lumaWeights {}.l1', 'luma_offset_l1': 'lumaOffsets {}.l1',
       'chroma_weight_l0_flag': 'chromaFlags {0}.chroma_array_type {0}.l0', 'chroma_weight_l1_flag': 'chromaFlags {0}.chroma_array_type {0}.l1',
       'chroma_weight_l0': 'chromaWeights {}.l0', 'chroma_offset_l0': 'chromaOffsets {}.l0',
       'chroma_weight_l1': 'chromaWeights {}.l1', 'chroma_offset_l1': 'chromaOffsets {}.l1'}
NUT = {'UNSPECIFIED_NUT': 0, 'CODED_SLICE_OF_NON_IDR_PICTURE_NUT': 1, 'CODED_SLICE_OF_IDR_PICTURE_NUT': 5, 'SEI_NUT': 6, 'SPS_NUT': 7,
       'PPS_NUT': 8, 'AUD_NUT': 9, 'PREFIX_NUT': 14, 'SUBSET_SPS_NUT': 15, 'CODED_SLICE_EXTENSION': 20, 'RTP_STAPA_NUT': 24, 'RTP_FUA_NUT': 28}
SLT = {'P': 0, 'B': 1, 'I': 2, 'SP': 3, 'SI': 4, 'P_ALL': 5, 'B_ALL': 6, 'I_ALL': 7, 'SP_ALL': 8, 'SI_ALL': 9}

SCALG = {}
for _g, _n in (('copied', 'ScalCopied'), ('pic', 'ScalPic'), ('ref', 'ScalRef'), ('qp', 'ScalQp'), ('layer', 'ScalLayer'), ('pred', 'ScalPred')):
    _t = open(os.path.join(os.path.dirname(__file__), '../lean/Verif/Types/Scalable.lean')).read()
    _b = _t[_t.index(f'structure {_n} where'):]; _b = _b[:_b.index('deriving')]
    for _f in re.findall(r'^  (\w+) :', _b, flags=re.M): SCALG[_f] = _g

class Skip(Exception): pass

def strip_comments(s):
    s = re.sub(r'#if 0.*?#endif[^\n]*', '', s, flags=re.S)
    s = re.sub(r'//[^\n]*', '', s)
    return s

def tests(src):
    out = []
    for m in re.finditer(r'TEST_F\(\s*(\w+)\s*,\s*(\w+)\s*\)\s*\{', src):
        d, i = 1, m.end()
        while d:
            d += {'{': 1, '}': -1}.get(src[i], 0); i += 1
        out.append((m.group(2), src[m.end():i - 1], src[:m.start()].count('\n') + 1))
    return out

def split_top(s, sep):
    out, d, cur = [], 0, ''
    for c in s:
        if c in '([{': d += 1
        if c in ')]}': d -= 1
        if c == sep and d == 0: out.append(cur.strip()); cur = ''
        else: cur += c
    if cur.strip(): out.append(cur.strip())
    return out

def num(s):
    s = s.strip()
    m = re.fullmatch(r'(?:h264nal::)?NalUnitType::(\w+)', s)
    if m: return str(NUT[m.group(1)])
    m = re.fullmatch(r'(?:h264nal::)?SliceType::(\w+)', s)
    if m: return str(SLT[m.group(1)])
    s = s.rstrip('u')
    if re.fullmatch(r'-?(0x[0-9a-fA-F]+|\d+)', s):
        v = int(s, 0)
        return f'({v})' if v < 0 else str(v)
    raise Skip('number ' + s)

class T:
    def __init__(self, name, body, consts):
        self.name = name
        self.arr = dict(consts)
        self.ints = {}
        self.alias = {}
        self.mock = {}          # variable -> (kind, {field: value})
        self.mocksubs = {}
        self.opts = {}
        self.lines = []         # do-block
        self.checks = []
        self.skipped = []
        self.n = 0
        self.sets = []          # entries in the mock store
        self.store = None
        for st in split_top(body, ';'):
            st = re.sub(r'\s+', ' ', st).strip()
            st = re.sub(r':: ', '::', st); st = re.sub(r' ?-> ?', '->', st); st = re.sub(r'(make_\w+)< ', r'\1<', st)
            try: self.stmt(st)
            except Skip as e: self.skipped.append(f'{e}')

    def int_(self, s):
        s = s.strip()
        if s in self.ints: return self.ints[s]
        return num(s)

    def storeExpr(self):
        if self.store: return self.store
        def ent(kind, dflt):
            es = [(i, v) for (k, i, v) in self.sets if k == kind]
            if not es: return None
            f = 'fun _ => none'
            e = f'({f})'
            for i, v in es: e = f'(upd {e} {i} {self.mockExpr(v)})'
            return f'{kind} := {e}'
        parts = [x for x in (ent('sps', 0), ent('pps', 0), ent('subset_sps', 0)) if x]
        return '({ ' + ', '.join(parts) + ' } : Store)'

    def mockExpr(self, v):
        kind, f = self.mock[v]
        if kind == 'subset':
            parts = []
            if v in self.mocksubs:
                for fld, w in self.mocksubs[v].items():
                    e = self.mockExpr(w)
                    parts.append(f'{fld} := some {e}' if fld == 'seq_parameter_set_svc_extension' else f'{fld} := {e}')
            ty = 'SubsetSps'
            parts += [f'{a} := {b}' for a, b in f.items()]
            return '({ ' + ', '.join(parts) + f' }} : {ty})'
        ty = {'sps': 'SpsData', 'pps': 'Pps', 'svc': 'SpsSvcExt', 'hdr': 'NalHeader', 'hsvc': 'SvcHeaderExt'}[kind]
        parts = [f'{a} := {b}' for a, b in f.items()]
        if v in self.mocksubs:
            for fld, w in self.mocksubs[v].items(): parts.append(f'{fld} := some {self.mockExpr(w)}')
        if kind == 'hdr':
            for d in ('forbidden_zero_bit', 'nal_ref_idc', 'nal_unit_type', 'svc_extension_flag', 'avc_3d_extension_flag'):
                if d not in f: parts.append(f'{d} := 0')
        return '({ ' + ', '.join(parts) + f' }} : {ty})'

    def path(self, s):
        s = s.replace(' ', '')
        if s.startswith('('): raise Skip('expression ' + s)
        s = s.replace('->', '.').replace('.get()', '')
        parts = []
        for tok in s.split('.'):
            m = re.fullmatch(r'(\w+)((?:\[\w+\])*)', tok)
            if not m:
                if re.fullmatch(r'size\(\)', tok): parts.append('size'); continue
                raise Skip('expression ' + s)
            parts.append(m.group(1))
            for ix in re.findall(r'\[(\w+)\]', m.group(2)): parts.append(('ix', ix))
        root = parts[0]
        if root in self.alias: parts = self.alias[root] + parts[1:]
        return parts

    def expr(self, parts):
        """Lean expression of type Option _ for a path; root variables hold options"""
        root = parts[0]
        binds, cur, k = [], None, 0
        if root == 'bitstream_parser_state':
            cur = self.store
            parts = list(parts)
            fld, ix = parts[1], parts[2][1]
            i = self.int_(ix) if ix not in self.alias else None
            if i is None:
                inner = self.expr(self.alias[ix]); binds.append(f'let i ← {inner}'); i = 'i'
            binds.append(f'let y{k} ← {cur}.{fld} {i}'); cur = f'y{k}'; k += 1
            rest = parts[3:]
        elif root in self.mock and root not in self.roots():
            raise Skip('mock ' + root)
        else:
            if root not in self.roots(): raise Skip('unknown variable ' + root)
            kind = self.rootkind[root]
            if kind == 'opt':
                binds.append(f'let y{k} ← {root}'); cur = f'y{k}'; k += 1
            else: cur = root
            rest = parts[1:]
        pwt = False
        stap = self.isStap(parts)
        hdr_payload_opt = self.fua(parts)
        i = 0
        scal = self.roottype.get(root) == 'scal' if root in self.roots() else False
        while i < len(rest):
            p = rest[i]
            if scal and p in SCALG: cur = f'{cur}.{SCALG[p]}'; scal = False
            if p == 'slice_header_in_scalable_extension': scal = True
            if isinstance(p, tuple):
                idx = p[1] if p[1].isdigit() else self.ints.get(p[1])
                if idx is None: raise Skip('index ' + p[1])
                binds.append(f'let y{k} ← ({cur})[{idx}]?'); cur = f'y{k}'; k += 1
            elif p == 'sps_data': pass
            elif p == 'size': cur = f'({cur}).length'
            elif p == 'nal_unit_header_svc_extension':
                binds.append(f'let y{k} ← {cur}.svc_extension'); cur = f'y{k}'; k += 1
            elif p in ('nal_unit_sizes', 'nal_unit_headers', 'nal_unit_payloads'):
                pr = {'nal_unit_sizes': '(·.1)', 'nal_unit_headers': '(·.2.1)', 'nal_unit_payloads': '(·.2.2)'}[p]
                cur = f'({cur}.nal_units.map {pr})'
            elif p == 'nal_unit_payload' and hdr_payload_opt:
                binds.append(f'let y{k} ← {cur}.nal_unit_payload'); cur = f'y{k}'; k += 1
            elif p == 'seq_scaling_list_present_flag': cur = f'{cur}.scaling_list_present_flag'
            elif p in PWT: cur = '(' + PWT[p].format(cur) + ')'
            elif p in OPT:
                binds.append(f'let y{k} ← {cur}.{p}'); cur = f'y{k}'; k += 1
            else: cur = f'{cur}.{p}'
            i += 1
        if not binds: return f'(some ({cur}))'
        return '(do ' + '; '.join(binds) + f'; pure ({cur}) : Option _)'

    def isStap(self, parts): return 'rtp_stapa' in parts
    def fua(self, parts): return 'rtp_fua' in parts or (parts[0] in self.roots() and self.roottype.get(parts[0]) == 'fua')

    rootkind = None
    res = False
    def roots(self): return self.rootkind or {}
    def addroot(self, v, kind, ty=None):
        if self.rootkind is None: self.rootkind = {}; self.roottype = {}
        self.rootkind[v] = kind; self.roottype[v] = ty

    def data(self, args):
        a = args[0]
        if a not in self.arr: raise Skip('array ' + a)
        n = args[1].replace(' ', '')
        if n in (f'arraysize({a})', f'sizeof({a})'): return f'{self.arr[a]}', None
        return f'({self.arr[a]}.take {self.int_(n)})', None

    def stmt(self, st):
        if not st: return
        m = re.fullmatch(r'(?:static )?const uint8_t (\w+)\[\] = \{(.*)\}', st)
        if m:
            xs = [num(x) for x in m.group(2).split(',') if x.strip()]
            self.arr[m.group(1)] = '([' + ', '.join(xs) + '] : List UInt8)'; return
        # resolution
        m = re.fullmatch(r'(?:int result = |EXPECT_(?:EQ|NE)\([-\w]+, )(.*?)(?:->|\.)getResolution\(&width, &height\)\)?', st)
        if m:
            r = m.group(1)
            e = f'some {self.mockExpr(r)}' if r in self.mock else self.expr(self.path(r))
            self.lines.append(f'let resolution ← (match ({e} : Option SpsData) with | some x => x.getResolution | none => .val none)')
            self.res = True
            if 'EXPECT_EQ(-1' in st or 'EXPECT_NE(0' in st: self.checks.append('resolution.isNone')
            else: self.checks.append('resolution.isSome')
            return
        m = re.fullmatch(r'EXPECT_EQ\((\d+), (width|height)\)', st)
        if m and self.res:
            if 'resolution.isNone' in self.checks: return
            self.checks.append(f'(resolution.map (·.{1 if m.group(2) == "width" else 2})) == some {m.group(1)}'); return
        if st == 'EXPECT_EQ(0, result)' and self.res: return
        m = re.fullmatch(r'(?:const )?(?:uint32_t|size_t|int|uint8_t) (\w+) = (.*)', st)
        if m:
            try: self.ints[m.group(1)] = self.int_(m.group(2)); return
            except Skip:
                raise
        m = re.fullmatch(r'(\w+) \+= (.*)', st)
        if m and m.group(1) in self.ints:
            self.ints[m.group(1)] = str(int(self.ints[m.group(1)]) + int(self.int_(m.group(2)))); return
        m = re.fullmatch(r'(\w+) = (\d+)', st)
        if m and m.group(1) in self.ints: self.ints[m.group(1)] = m.group(2); return
        if re.fullmatch(r'H264BitstreamParserState bitstream_parser_state', st): return
        m = re.fullmatch(r'ParsingOptions (\w+)', st)
        if m: return
        m = re.fullmatch(r'parsing_options\.(\w+) = (\w+)', st)
        if m: self.opts[m.group(1)] = m.group(2); return
        # mock state
        m = re.fullmatch(r'(?:auto|std::shared_ptr<[\w:]+>|std::unique_ptr<[\w:]+>) (\w+) = std::make_(?:shared|unique)<([\w:]+)>\(\)', st)
        if m:
            kind = {'SpsState': 'sps', 'SpsDataState': 'sps', 'PpsState': 'pps', 'SubsetSpsState': 'subset', 'SpsSvcExtensionState': 'svc',
                    'NalUnitHeaderState': 'hdr', 'NalUnitHeaderSvcExtensionState': 'hsvc'}.get(m.group(2).split('::')[-1])
            if not kind: raise Skip('mock ' + m.group(2))
            self.mock[m.group(1)] = (kind, {}); return
        m = re.fullmatch(r'(\w+)->(\w+) = std::make_(?:shared|unique)<([\w:]+)>\(\)', st)
        if m:
            v, f, ty = m.groups()
            if f == 'sps_data': return
            kind = {'SpsDataState': 'sps', 'SpsSvcExtensionState': 'svc', 'NalUnitHeaderSvcExtensionState': 'hsvc'}.get(ty.split('::')[-1])
            if not kind: raise Skip('mock ' + ty)
            w = f'{v}->{f}'
            self.mock[w] = (kind, {})
            lf = {'nal_unit_header_svc_extension': 'svc_extension'}.get(f, f)
            self.mocksubs.setdefault(v, {})[lf] = w; return
        m = re.fullmatch(r'(\w+)->(\w+)(?:->(\w+))? = (.*)', st)
        if m:
            v, f, g, val = m.groups()
            m2 = re.fullmatch(r'std::move\((\w+)\)', val)
            if v in self.mock and m2:
                lf = {'nal_unit_header_svc_extension': 'svc_extension'}.get(f, f)
                self.mocksubs.setdefault(v, {})[lf] = m2.group(1); return
            if v in self.mock:
                val = self.int_(val)
                if g is None: self.mock[v][1][f] = val
                elif f == 'sps_data': self.mock[v][1][g] = val
                else: self.mock[f'{v}->{f}'][1][g] = val
                return
            if v in self.alias and g is None:
                w = '->'.join(self.alias[v])
                if w in self.mock: self.mock[w][1][f] = self.int_(val); return
        m = re.fullmatch(r'bitstream_parser_state\.(sps|pps|subset_sps)\[(\w+)\] = (?:std::move\()?(\w+)\)?', st)
        if m: self.sets.append((m.group(1), m.group(2), m.group(3))); return
        # mock values that are not pointers
        m = re.fullmatch(r'[\w:]*?(NalUnitHeaderState|SpsDataState) (\w+)', st)
        if m: self.mock[m.group(2)] = ({'NalUnitHeaderState': 'hdr', 'SpsDataState': 'sps'}[m.group(1)], {}); return
        m = re.fullmatch(r'(\w+)\.(\w+) = ([\w:]+)', st)
        if m and m.group(1) in self.mock: self.mock[m.group(1)][1][m.group(2)] = self.int_(m.group(3)); return
        m = re.fullmatch(r'(\w+)\.(\w+) = std::make_unique<([\w:]+)>\(\)', st)
        if m and m.group(1) in self.mock:
            w = f'{m.group(1)}->{m.group(2)}'
            self.mock[w] = ('hsvc', {}); self.mocksubs.setdefault(m.group(1), {})['svc_extension'] = w; return
        m = re.fullmatch(r'EXPECT_EQ\((\d+), State::getSliceGroupChangeCycleLen\((\d+), (\d+), (\d+)\)\)', st)
        if m:
            v, a, b, c = m.groups()
            self.checks.append(f'sliceGroupChangeCycleLen {a} {b} {c} == .val {v}'); return
        # parser calls
        m = re.fullmatch(r'(?:auto )?(\w+) = (\w+)::(Parse\w+|GetNalUnitType|FindNaluIndices\w*)\((.*)\)', st)
        if m:
            self.call(m.group(1), m.group(3), split_top(m.group(4), ',')); return
        m = re.fullmatch(r'auto ?& ?(\w+) = (.*)', st)
        if m:
            self.alias[m.group(1)] = self.path(m.group(2)); return
        m = re.fullmatch(r'auto (\w+) = (\w+->.*)', st)
        if m:
            self.alias[m.group(1)] = self.path(m.group(2)); return
        # expectations
        m = re.fullmatch(r'(?:EXPECT|ASSERT)_(TRUE|FALSE)\((\w[\w\->\[\].]*)->IsPayloadParsed\((.*)\)\)', st.replace(' ', ''))
        if m:
            e = self.expr(self.path(m.group(2)))
            a = m.group(3)
            try: a = f'(some {num(a)})'
            except Skip: a = self.expr(self.path(a))
            v = 'true' if m.group(1) == 'TRUE' else 'false'
            self.checks.append(f'(do let p ← {e}; let t ← {a}; pure (p.isPayloadParsed t) : Option Bool) == some {v}'); return
        m = re.fullmatch(r'(?:EXPECT|ASSERT)_TRUE\((.*?) (!=|==) nullptr\)', st)
        if m: self.null(m.group(1), m.group(2) == '!='); return
        m = re.fullmatch(r'(?:EXPECT|ASSERT)_(EQ|NE)\((.*)\)', st)
        if m:
            a, b = split_top(m.group(2), ',')
            if m.group(1) == 'NE':
                if a == 'nullptr': self.null(b, True); return
                if b == 'nullptr': self.null(a, True); return
                raise Skip(st)
            if a == 'nullptr': self.null(b, False); return
            if b == 'nullptr': self.null(a, False); return
            try: v, e = self.int_(a), b
            except Skip: v, e = self.int_(b), a
            self.checks.append(f'{self.expr(self.path(e))} == some {v}'); return
        m = re.fullmatch(r'(?:EXPECT|ASSERT)_THAT\( ?std::vector<char>\( ?(.*?)->checksum->GetChecksum\(\), .*ElementsAreArray\(\{(.*)\}\)\)', st)
        if m:
            e = self.expr(self.path(m.group(1)) + ['checksum'])
            vs = ', '.join(num(x) for x in m.group(2).split(','))
            self.checks.append(f'({e}.map (fun (x : NaluChecksum) => x.checksum.take x.length)) == some [{vs}]'); return
        m = re.fullmatch(r'(?:EXPECT|ASSERT)_THAT\((.*?), ?(?:::testing::)?ElementsAreArray\(\{(.*)\}\)\)', st)
        if m:
            body = m.group(2)
            if 'ElementsAreArray' in body:
                vs = ', '.join('[' + ', '.join(num(x) for x in y.split(',')) + ']' for y in re.findall(r'ElementsAreArray\(\{(.*?)\}\)', body))
            else: vs = ', '.join(num(x) for x in body.split(',') if x.strip())
            self.checks.append(f'{self.expr(self.path(m.group(1)))} == some [{vs}]'); return
        raise Skip(st[:110])

    def null(self, e, nonnull):
        p = self.path(e)
        while p[-1] == 'sps_data': p = p[:-1]
        if not p or (len(p) == 1 and p[0] not in self.roots()): raise Skip('null check ' + e)
        t = 'isSome' if nonnull else 'isNone'
        if len(p) == 1 and p[0] in self.roots():
            if self.rootkind[p[0]] == 'val': return
            self.checks.append(f'{p[0]}.{t}'); return
        if p[-1] in OPT or p[-1] == 'nal_unit_header_svc_extension' or (p[-1] == 'nal_unit_payload' and self.fua(p)):
            lf = 'svc_extension' if p[-1] == 'nal_unit_header_svc_extension' else p[-1]
            e2 = self.expr(p[:-1])
            if p[-1] in SCALG and ('slice_header_in_scalable_extension' == p[-2] or self.roottype.get(p[-2]) == 'scal'): lf = f'{SCALG[p[-1]]}.{lf}'
            self.checks.append(f'({e2}.map (fun x => x.{lf}.{t})) == some true'); return
        if nonnull: self.checks.append(f'{self.expr(p)}.isSome'); return
        raise Skip('null check ' + e)

    def call(self, v, f, args):
        k = len(self.lines)
        if v in self.roots(): self.alias[v] = [v + '2']; v = v + '2'
        if f in PROG:
            prog, extra = PROG[f]
            d, _ = self.data(args)
            xs = args[2:]
            as_ = []
            for x, kind in zip(xs, extra):
                as_.append(self.int_(x) if kind == 'n' else self.storeExpr() if kind == 's' else self.hdrExpr(x))
            if len(xs) != len(extra): raise Skip('call ' + f)
            order = ORDER.get(f)
            if order: as_ = [as_[i] for i in order]
            self.lines.append(f'let {v} ← onBytes nd ({" ".join([prog] + as_)}) {d}')
            self.addroot(v, 'opt', 'scal' if prog == 'parseScalHeader' else None); return
        if f in STATE:
            fn, extra, ty = STATE[f]
            d, _ = self.data(args)
            xs = args[2:]
            ks = []
            opts = '{ ' + ', '.join(f'{a} := {b}' for a, b in self.opts.items()) + ' }' if self.opts else '{}'
            hasopt = False; nums = []; fresh = True
            for x in xs:
                x = x.strip()
                if x == '&bitstream_parser_state': fresh = False
                elif x == 'parsing_options': hasopt = True
                else: nums.append(self.int_(x))
            st = self.storeExpr()
            nm = f'σ{k}'
            if fresh:
                self.lines.append(f'let ({v}, _) ← {fn}Fresh nd {opts} {d} {" ".join(nums)} 0')
                self.addroot(v, 'val', ty); return
            if fn in ('parseBitstream', 'parseBitstreamNALULength'):
                self.lines.append(f'let ({v}, {nm}, _) ← {fn} nd {opts} {d} {" ".join(nums)} {st} 0')
                self.addroot(v, 'val', ty)
            else:
                o = f' {opts}' if hasopt else ''
                self.lines.append(f'let ({v}, {nm}, _) ← {fn} nd{o} {d} 0 {d}.length {" ".join(nums)} {st} 0')
                self.addroot(v, 'opt', ty)
            self.store = nm; return
        raise Skip('call ' + f)

    def hdrExpr(self, x):
        x = x.strip().lstrip('*&').replace('.get()', '')
        if x in self.mock: return self.mockExpr(x)
        raise Skip('header ' + x)

PROG = {
    'ParseSps': ('parseSps', ''), 'ParseSpsData': ('parseSpsData', ''), 'ParsePps': ('parsePps', 'n'),
    'ParseVuiParameters': ('parseVui', ''), 'ParseHrdParameters': ('parseHrd', ''),
    'ParseDecRefPicMarking': ('parseDecRefPicMarking', 'n'), 'ParseRefPicListModification': ('parseRefPicListMod', 'n'),
    'ParsePredWeightTable': ('parsePredWeightTable', 'nnnn'), 'ParseNalUnitHeaderSvcExtension': ('parseSvcHeaderExt', ''),
    'ParseNalUnitHeader': ('parseNalHeader', ''),
    'ParsePrefixNalUnitRbsp': ('parsePrefixRbsp', 'nnnn'), 'ParseSpsExtension': ('parseSpsExt', ''),
    'ParseSpsSvcExtension': ('parseSpsSvcExt', 'n'), 'ParseSubsetSps': ('parseSubsetSps', ''),
    'ParseSliceHeader': ('parseSliceHeader', 'nns'), 'ParseSliceLayerWithoutPartitioningRbsp': ('parseSliceLayer', 'nns'),
    'ParseSliceHeaderInScalableExtension': ('parseScalHeader', 'hs'), 'ParseSliceLayerExtensionRbsp': ('parseSliceLayerExt', 'hs'),
}
ORDER = {'ParseSliceHeader': [2, 0, 1], 'ParseSliceLayerWithoutPartitioningRbsp': [2, 0, 1],
         'ParseSliceHeaderInScalableExtension': [1, 0], 'ParseSliceLayerExtensionRbsp': [1, 0]}
STATE = {
    'ParseNalUnit': ('parseNalUnit', '', 'nal'), 'ParseBitstream': ('parseBitstream', '', 'bs'),
    'ParseBitstreamNALULength': ('parseBitstreamNALULength', '', 'bs'),
    'ParseRtp': ('parseRtpData', '', 'rtp'), 'ParseRtpSingle': ('parseRtpSingleData', '', 'single'),
    'ParseRtpStapA': ('parseRtpStapAData', '', 'stapa'), 'ParseRtpFuA': ('parseRtpFuAData', 'n', 'fua'),
}

def main():
    src, out = sys.argv[1:3]
    files = sorted(f for f in os.listdir(src) if f.endswith('_unittest.cc') and 'common' not in f)
    total = done = skipped = 0
    body = []
    for fn in files:
        raw = open(os.path.join(src, fn)).read()
        s = strip_comments(raw)
        consts = {}
        for m in re.finditer(r'^const uint8_t (\w+)\[\] = \{(.*?)\};', s, flags=re.S | re.M):
            consts[m.group(1)] = '([' + ', '.join(num(x) for x in m.group(2).split(',') if x.strip()) + '] : List UInt8)'
        body.append(f'/-! ### test/{fn} -/\n')
        lines = {m.group(1): raw[:m.start()].count('\n') + 1 for m in re.finditer(r'TEST_F\(\s*\w+\s*,\s*(\w+)\s*\)', raw)}
        for name, b, _ in tests(s):
            total += 1
            t = T(name, b, consts)
            for x in t.skipped: print(f'{fn}:{name}: {x}', file=sys.stderr); skipped += 1
            if not t.checks: continue
            done += 1
            body.append(f'/-- {name} (test/{fn}:{lines[name]}), {len(t.checks)} expectations. -/')
            body.append('example : ∀ nd : Bool, (do')
            for l in t.lines: body.append(f'    {l}')
            body.append('    pure (' + ' &&\n      '.join(t.checks) + ') : Res Bool) = .val true := by decide +kernel\n')
    with open(os.path.join(out, 'Conformance.lean'), 'w') as f:
        f.write('import Verif.Model.Rtp\n\n/-\nGenerated by tools/gen_conformance.py from the unit tests of the library: the model gives the results the tests expect of\n'
                'the code.  These are tests of the model, not proofs about it; no property rests on them.\n-/\n\nset_option linter.unusedVariables false\n\nnamespace H264\n\n'
                '/-- A `(data, length)` overload of a parser. -/\n'
                'def onBytes {α : Type} (nd : Bool) (p : Prog α) (data : List UInt8) : Res (Option α) := do\n'
                '  let bytes ← unescapeRbsp data 0 data.length\n  let b ← Buf.new nd bytes\n  let (x, _) ← (run nd p ⟨b, 0⟩).res\n  pure x\n\n')
        f.write('\n'.join(body))
        f.write('\nend H264\n')
    print(f'{done} of {total} tests, {skipped} statements skipped', file=sys.stderr)
main()
