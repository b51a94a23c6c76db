"""Generate, for every message structure, its value in terms of the protocol and the proofs that it is
written and read as the protocol says.

Output: lean/Verif/Protocol/Conform/<Api>.lean and lean/Verif/Protocol/Conform.lean; for the side of a broker, which reads
requests and writes replies, lean/Verif/Protocol/Asked/<Api>.lean and lean/Verif/Protocol/Served.lean.  The schemas in
lean/Verif/Protocol/Messages.lean and the tables in lean/Verif/Protocol/Api.lean are written by hand.
"""
import os
import re
import sys

sys.path.insert(0, os.path.dirname(__file__))
from parse_messages import parse
from gen_messages import LEAN_TY, ZERO, LOW, fid, cond, elem

ROOT = os.path.join(os.path.dirname(os.path.abspath(__file__)), '..', 'lean', 'Verif', 'Protocol')

# structures whose schema is not named after the structure without the key
RENAME = {'AlterConfigsResource44': 'IncrementalAlterConfigsResource',
          'AlterableConfig44': 'IncrementalAlterableConfig'}
# fields of the protocol that the client does not have: (structure, field before) -> condition
MISSING = {('OffsetCommitRequestPartition8', 'CommittedLeaderEpoch'): '(notOne h1)'}
# and their names and values
ABSENT = {('OffsetCommitRequestPartition8', 'CommittedLeaderEpoch'): '("CommitTimestamp", .int64 0)'}
# fields of the client that the protocol does not have
EXTRA = {('CreatableTopicResult19', 'TopicConfigErrorCode'): '(notFive h5)'}
# slices of scalars that may be null in the protocol, at every version
NULLABLE = {('DescribeConfigsResource32', 'ConfigurationKeys'), ('ReassignablePartition45', 'Replicas')}
HYP = {'OffsetCommitRequestPartition8': '(h1 : v ≠ 1)', 'CreatableTopicResult19': '(h5 : v < 5)'}

CON = {'bool': '.bool', 'int8': '.int8', 'int16': '.int16', 'int32': '.int32', 'int64': '.int64',
       'string': 'fun s => .str (some s)', '[]byte': 'fun b => .bytes (some b.elems)',
       '[]int32': 'ofScalars .int32', '[]int64': 'ofScalars .int64',
       '[]string': 'ofScalars (fun s => .str (some s))'}
TO = {'bool': 'toBool', 'int8': 'toInt8', 'int16': 'toInt16', 'int32': 'toInt32', 'int64': 'toInt64',
      'string': 'toStr', '[]byte': 'toBytes', '[]int32': 'toSlice Val.toInt32',
      '[]int64': 'toSlice Val.toInt64', '[]string': 'toSlice Val.toStr'}


def con(ty):
    return CON.get(ty) or f'ofStructs {ty[2:]}.val'


def vof(ty, e):
    if ty == 'string':
        return f'.str (some {e})'
    if ty == '[]byte':
        return f'.bytes (some {e}.elems)'
    return f'{con(ty)} {e}'


def schema(n, key):
    if n in RENAME:
        return RENAME[n]
    return re.sub(rf'{key}$', '', n) if key is not None else n


def main():
    structs, order = parse()
    used = {t[2:] for s in structs.values() for _, t, _ in s.fields if t[2:] in structs}
    groups, keys, cur, key = {}, {}, None, None
    for n in order:
        if n not in used:
            cur = re.sub(r'(Request|Response)$', '', n)
            if n in ('RequestHeader', 'ResponseHeader'):
                cur = 'Header'
            keys[n] = None
        else:
            keys[n] = re.search(r'\d+$', n)[0]
        groups.setdefault(cur, []).append(n)
    # the key of a structure is that of its message
    apikey = {g: None for g in groups}
    for g, names in groups.items():
        tops = [n for n in names if n not in used]
        apikey[g] = next((structs[n].api[0] for n in tops if structs[n].api), None)
    num = {}
    for line in re.findall(r'\.(\w+) => (\d+)', open(os.path.join(ROOT, '..', 'Broker', 'Protocol.lean')).read().split('def Api.protocolMax')[0]):
        num[line[0]] = line[1]
    hyps = {}
    fulls = set()

    def hyp(n):
        if n not in hyps:
            hs = [HYP[n]] if n in HYP else []
            for _, t, _ in structs[n].fields:
                if t[2:] in structs:
                    hs += [h for h in hyp(t[2:]) if h not in hs]
            hyps[n] = hs
        return hyps[n]

    def hargs(n):
        return ''.join(' ' + re.match(r'\((\w+)', h)[1] for h in hyp(n))

    resp = set()

    def mark(n):
        resp.add(n)
        for _, t, _ in structs[n].fields:
            if t[2:] in structs:
                mark(t[2:])
    for n in order:
        if n not in used and (n.endswith('Response') or n.endswith('Header')):
            mark(n)
    seen = {n for n in order if n not in resp and hyp(n)}
    for sub in ('Conform', 'Asked'):
        os.makedirs(os.path.join(ROOT, sub), exist_ok=True)
        for f in os.listdir(os.path.join(ROOT, sub)):
            os.remove(os.path.join(ROOT, sub, f))
    for g, names in groups.items():
        done = []

        def visit(n):
            if n in done:
                return
            for _, t, _ in structs[n].fields:
                if t[2:] in structs:
                    visit(t[2:])
            done.append(n)
        for n in names:
            visit(n)
        o = [f'import Verif.Protocol.ParseLemmas', f'import Verif.Gen.Spec.{g}', '/-!',
             f'Generated by tools/gen_protocol.py: the {g} messages are written and read as the protocol says.',
             '-/', 'namespace Kafka.Msg', '', 'open Protocol', '']
        asked = [f'import Verif.Protocol.Conform.{g}', '/-!',
                 f'Generated by tools/gen_protocol.py: the {g} request is read as the protocol says.',
                 '-/', 'namespace Kafka.Msg', '', 'open Protocol', '']
        for n in done:
            st = structs[n]
            k = num.get(g) if n in used else None
            S = 'Protocol.' + schema(n, k)
            ty = {f: t for f, t, _ in st.fields}
            hs = ''.join(' ' + h for h in hyp(n))
            ops = st.encode[2]
            fields = [f for f, _, _ in st.fields if (n, f) not in EXTRA]
            o.append(f'/-- `{n}` as a value of the protocol. -/')
            tv = 't' if fields else '_t'
            o.append(f'def {n}.val ({tv} : {n}) : Val :=')
            o.append('  .struct [' + ',\n    '.join(f'("{f}", {vof(ty[f], "t." + fid(f))})' for f in fields) + ']')
            o.append('')
            wr = []
            for op in ops:
                f, gd = op['field'], op['guard']
                if op['kind'] == 'put':
                    h = f'Protocol.wire_{LOW[op["what"]]} v t.{fid(f)}'
                else:
                    e = ty[f][2:]
                    h = f'Protocol.wire_structs v ({e}.conforms hv{hargs(e)}) t.{fid(f)}'
                if (n, f) in EXTRA:
                    wr.append(f'Writes.extra {EXTRA[(n, f)]}')
                elif gd is None:
                    wr.append(f'Writes.all hv ({h})')
                elif gd[1] is None:
                    wr.append(f'Writes.since ({h})')
                else:
                    wr.append(f'Writes.between ({h})')
                if (n, f) in MISSING:
                    wr.append(f'Writes.absent {MISSING[(n, f)]}')
            hv = 'hv' if any('hv' in w for w in wr) else '_hv'
            o.append(f'theorem {n}.conforms {{v : Int16}} ({hv} : 0 ≤ v){hs} (t : {n}) :')
            o.append(f'    {S}.wire false v ({n}.val t) = {n}.wire v t :=')
            o.append('  Writes.eq <|\n    ' + ' <|\n    '.join(wr + ['Writes.done']))
            o.append('')
            conf = [re.sub(r'(\w+)\.conforms', lambda m: m[1] + ('.asked_conforms' if m[1] in seen else '.conforms'), w) for w in wr]
            # validity
            va, full = [], []
            for op in ops:
                f, gd = op['field'], op['guard']
                t, ff = ty[f], fid(f)
                arg = ' hc' if gd else ''
                if (n, f) in EXTRA:
                    continue
                if t in ZERO and t != 'string':
                    h = 'trivial'
                elif t in ('string', '[]byte'):
                    h = f'valid_{LOW[op["what"]]} (h.{ff}{arg})'
                elif t in LEAN_TY:
                    if (n, f) in NULLABLE:
                        h = f'valid_{LOW[op["what"]]} (h.{ff}{arg}) (.inl (nullable_zero hv))'
                    else:
                        h = f'valid_{LOW[op["what"]]} (h.{ff}{arg}) (.inr (hf.{ff}{arg}))'
                        full.append((ff, gd, f't.{ff}.NotNil'))
                else:
                    e = t[2:]
                    h = f'valid_structs (fun y h hf => {e}.valid hv{hargs(e)} y h hf) (h.{ff}{arg}) '
                    if e in fulls:
                        h += f'(hf.{ff}{arg})'
                        full.append((ff, gd, f'FullAll ({e}.Full v) t.{ff}'))
                    else:
                        h += '(fun _ _ => trivial)'
                if gd:
                    va.append(f'Valids.{"between" if gd[1] is not None else "since"} (fun {"hc" if "hc" in h else "_"} => {h})')
                else:
                    va.append(f'Valids.all ({h})' if h != 'trivial' else 'Valids.all trivial')
                if (n, f) in MISSING:
                    va.append(f'Valids.absent {MISSING[(n, f)]}')
            if full:
                fulls.add(n)
                o.append('/-- No slice of scalars is nil where the protocol has no null. -/')
                o.append(f'structure {n}.Full (v : Int16) (t : {n}) : Prop where')
                for f, gd, e in full:
                    o.append(f'  {f} : ' + (f'{cond(gd, "v")} → ' if gd else '') + e)
            else:
                o.append('/-- There is nothing that may not be nil. -/')
                o.append(f'def {n}.Full (_v : Int16) (_t : {n}) : Prop := True')
            o.append('')
            txt = ' '.join(va)
            hf = 'hf' if re.search(r'\bhf\.', txt) else '_hf'
            h_ = 'h' if re.search(r'\bh\.', txt) else '_h'
            hvv = 'hv' if re.search(r'\bhv\b', txt) else '_hv'
            o.append(f'theorem {n}.valid {{v : Int16}} ({hvv} : 0 ≤ v){hs} (t : {n}) ({h_} : t.Fits v) ({hf} : t.Full v) :')
            o.append(f'    {S}.Valid true v ({n}.val t) :=')
            o.append('  ' + ' <|\n    '.join(va + ['trivial']))
            o.append('')
            out = o if n in resp else asked
            # reading
            parts, rd, wr, sh, pa = [], [], [], [], []
            path = 'h'
            byop = {op['field']: op for op in ops}
            for f, t, _ in st.fields:
                gd = byop[f]['guard']
                if (n, f) in EXTRA:
                    parts.append((fid(f), f't0.{fid(f)}'))
                    continue
                if t in TO:
                    e = f'(x.get "{f}").{TO[t]}'
                else:
                    e = f'(x.get "{f}").toSliceOr (fun y => {t[2:]}.of v y {{}}) t0.{fid(f)}'
                if gd:
                    e = f'if {cond(gd, "v")} then {e} else t0.{fid(f)}'
                parts.append((fid(f), e))
            for op in ops:
                f, gd = op['field'], op['guard']
                t = ty[f]
                setter = f'fun (t : {n}) x => {{ t with {fid(f)} := x }}'
                c = f'(c := {cond(gd, "v")}) ' if gd else ''
                if (n, f) in EXTRA:
                    rd.append(f'Step.absent {c}(w := []) {EXTRA[(n, f)]}')
                    wr.append(f'Writes.extra (w := []) {EXTRA[(n, f)]}')
                    pa.append(f'FParses.extra {c}(f := Dec.field Dec.{LOW[op["what"]]} ({setter})) {EXTRA[(n, f)]}')
                    continue
                hd = f'(Fields.Valid.head ({path}) hc)' if gd else f'(Fields.Valid.head ({path}) hv)'
                ht = hd.replace('Fields.Valid.', 'Fields.Typed.')
                if t in TO:
                    r = f'read_{LOW[op["what"]]} {hd}'
                    s1 = f'show_{LOW[op["what"]]} {ht}'
                    if gd:
                        pa.append(f'FParses.optField {c}Iff.rfl (set := {setter}) (·.{fid(f)}) (fun _ => rfl) par_{LOW[op["what"]]}')
                        r = f'Step.optField {c}(set := {setter}) (·.{fid(f)}) (fun _ => rfl) fun hc => {r}'
                    else:
                        pa.append(f'FParses.field hv (set := {setter}) par_{LOW[op["what"]]}')
                        r = f'Step.field (set := {setter}) ({r})'
                else:
                    e = t[2:]
                    fn = f'(fun y hy => {e}.decodes hv{hargs(e)} y hy {{}})'
                    s1 = f'show_structs (f := {e}.{"asked" if e in seen else "val"}) (g := fun y => {e}.of v y {{}}) (fun y hy => {e}.shown hv{hargs(e)} y hy) {ht}'
                    gs = f'(get := fun (t : {n}) => t.{fid(f)}) (set := {setter})'
                    pe = f'({e}.parses hv{hargs(e)} {{}})'
                    if gd:
                        pa.append(f'FParses.optStructs {c}Iff.rfl {gs} (fun _ => rfl) {pe}')
                        r = f'Step.readOptStructs {c}{gs} (fun _ => rfl) {fn} fun hc => {hd[1:-1]}'
                    else:
                        pa.append(f'FParses.structs hv {gs} {pe}')
                        r = f'Step.readStructs {gs} {fn} {hd}'
                rd.append(r)
                if gd is None:
                    wr.append('Writes.all hv rfl')
                    sh.append(f'Shows.all hv ({s1})')
                elif gd[1] is None:
                    wr.append('Writes.since rfl')
                    sh.append(f'Shows.since ({con(t)}) rfl (fun hc => {s1}) rfl')
                else:
                    wr.append('Writes.between rfl')
                    sh.append(f'Shows.between ({con(t)}) rfl (fun hc => {s1}) rfl')
                path = f'Fields.Valid.tail ({path})' if path != 'h' else 'Fields.Valid.tail h'
                if (n, f) in MISSING:
                    wr.append(f'Writes.absent {MISSING[(n, f)]}')
                    sh.append(f'Shows.absent {MISSING[(n, f)]} rfl')
                    pa.append(f'FParses.missing {MISSING[(n, f)]}')
                    path = f'Fields.Valid.tail ({path})'
            txt = ' '.join(e for _, e in parts)
            vv = 'v' if re.search(r'\bv\b', txt) else '_v'
            xx = 'x' if re.search(r'\bx\b', txt) else '_x'
            t0 = 't0' if re.search(r'\bt0\b', txt) else '_t0'
            out.append(f'/-- What `{n}` holds after reading the value `x` into `t0`. -/')
            out.append(f'def {n}.of ({vv} : Int16) ({xx} : Val) ({t0} : {n}) : {n} :=')
            out.append('  { ' + ',\n    '.join(f'{f} := {e}' for f, e in parts) + ' }')
            out.append('')
            if n in seen:
                fs = []
                for f, t, _ in st.fields:
                    e = f'ofStructs {t[2:]}.asked t.{fid(f)}' if t[2:] in seen else vof(t, 't.' + fid(f))
                    fs.append(f'("{f}", {e})')
                    if (n, f) in ABSENT:
                        fs.append(ABSENT[(n, f)])
                out.append(f'/-- `{n}` as a value of the protocol, what the client does not have being zero. -/')
                out.append(f'def {n}.asked (t : {n}) : Val :=')
                out.append('  .struct [' + ',\n    '.join(fs) + ']')
                out.append('')
                out.append(f'theorem {n}.asked_conforms {{v : Int16}} (hv : 0 ≤ v){hs} (t : {n}) :')
                out.append(f'    {S}.wire false v ({n}.asked t) = {n}.wire v t :=')
                out.append('  Writes.eq <|\n    ' + ' <|\n    '.join(conf + ['Writes.done']))
                out.append('')
            if not rd:
                out.append(f'theorem {n}.decodes {{v : Int16}} (_hv : 0 ≤ v) (x : Val) (_h : {S}.Valid false v x) (t0 : {n}) :')
                out.append(f'    Reads ({n}.decode v t0) ({S}.wire false v x) ({n}.of v x t0) := Reads.pure _')
                out.append('')
                out.append(f'theorem {n}.parses {{v : Int16}} (_hv : 0 ≤ v) (t0 : {n}) :')
                out.append(f'    Parses ({n}.decode v t0) ((Ty.struct {S}).parse v) (fun x => {n}.of v x t0) :=')
                out.append('  fun d _ => ⟨Nat.zero_le _, by rw [Decoder.skip_zero]; rfl⟩')
                out.append('')
                out.append(f'theorem {n}.shown {{v : Int16}} (_hv : 0 ≤ v) (x : Val) (_h : {S}.Typed v x) :')
                out.append(f'    {S}.shows v x ({n}.val ({n}.of v x {{}})) = true := rfl')
                out.append('')
                continue
            chain = f'({rd[0]})' + ''.join(f'\n      |>.andThen ({r})' for r in rd[1:])
            out.append(f'theorem {n}.decodes {{v : Int16}} ({hv} : 0 ≤ v){hs} (x : Val) (h : {S}.Valid false v x) (t0 : {n}) :')
            out.append(f'    Reads ({n}.decode v t0) ({S}.wire false v x) ({n}.of v x t0) :=')
            out.append(f'  Reads.congr (({chain} : Step _ _ _) t0)')
            out.append('    (Writes.eq (fs := ' + S + ') (v := v) (x := x) <| ' + ' <| '.join(wr + ['Writes.done']) + ').symm rfl')
            out.append('')
            out.append(f'theorem {n}.parses {{v : Int16}} ({hv} : 0 ≤ v){hs} (t0 : {n}) :')
            out.append(f'    Parses ({n}.decode v t0) ((Ty.struct {S}).parse v) (fun x => {n}.of v x t0) :=')
            out.append('  FParses.parses (fs := ' + S + ')\n    (' + ' <|\n    '.join(pa + ['FParses.done']) + ')')
            out.append(f'    (by simp only [{n}.decode, {"Dec.andThen_assoc, " if len(pa) > 2 else ""}Dec.andThen_nop]) (Fields.distinct_nodup _ (by decide +kernel)) (fun _ _ => rfl) t0')
            out.append('')
            out.append(f'theorem {n}.shown {{v : Int16}} ({hv} : 0 ≤ v){hs} (x : Val) (h : {S}.Typed v x) :')
            out.append(f'    {S}.shows v x ({n}.{"asked" if n in seen else "val"} ({n}.of v x {{}})) = true :=')
            out.append('  ' + ' <|\n    '.join(sh + ['rfl']))
            out.append('')
        if any('CreateTopics' in l for l in o[:3]):
            o.insert(o.index('namespace Kafka.Msg'), 'set_option linter.unusedVariables false')
        o.append('end Kafka.Msg')
        with open(os.path.join(ROOT, 'Conform', g + '.lean'), 'w') as fh:
            fh.write('\n'.join(o) + '\n')
        if g != 'Header':
            asked.append('end Kafka.Msg')
            with open(os.path.join(ROOT, 'Asked', g + '.lean'), 'w') as fh:
                fh.write('\n'.join(asked) + '\n')
    with open(os.path.join(ROOT, 'Conform.lean'), 'w') as fh:
        for g in groups:
            fh.write(f'import Verif.Protocol.Conform.{g}\n')
        fh.write('import Verif.Protocol.Api\n')
        fh.write('/-!\nGenerated by tools/gen_protocol.py: the requests and responses of all APIs.\n-/\nnamespace Kafka\n\nopen Msg\n\n')
        apis = [n[:-7] for n in order if n not in used and n.endswith('Request')]
        for q, Q, S in (('req', 'Request', 'request'), ('resp', 'Response', 'response')):
            fh.write(f'/-- A {S} as a value of the protocol. -/\ndef Api.{q}Val : (a : Api) → a.{q}.T → Protocol.Val\n')
            for a in apis:
                fh.write(f'  | .{a} => {a}{Q}.val\n')
            fh.write('\n')
        hy = '(v : Int16) → (hv : 0 ≤ v)'
        fh.write(f'theorem Api.req_conforms : (a : Api) → {hy} → (a = .OffsetCommit → v ≠ 1) → (req : a.req.T) →\n'
                 '    (Protocol.request a).wire false v (a.reqVal req) = a.reqLayout.wire v req\n')
        for a in apis:
            h = hyp(a + 'Request')
            fh.write(f'  | .{a}, _, hv, {"h" if h else "_"}, t => {a}Request.conforms hv{" (h rfl)" if h else ""} t\n')
        fh.write('\n/-- No slice of scalars is nil where the protocol has no null. -/\ndef Api.reqFull : (a : Api) → Int16 → a.req.T → Prop\n')
        for a in apis:
            fh.write(f'  | .{a} => {a}Request.Full\n')
        fh.write(f'\ntheorem Api.req_valid : (a : Api) → {hy} → (a = .OffsetCommit → v ≠ 1) → (req : a.req.T) →\n'
                 '    a.reqLayout.Fits v req → a.reqFull v req → (Protocol.request a).Valid true v (a.reqVal req)\n')
        for a in apis:
            h = hyp(a + 'Request')
            fh.write(f'  | .{a}, _, hv, {"h" if h else "_"}, t, hf, hF => {a}Request.valid hv{" (h rfl)" if h else ""} t hf hF\n')
        fh.write(f'\n/-- What is read from the value `x`. -/\ndef Api.respOf : (a : Api) → Int16 → Protocol.Val → a.resp.T\n')
        for a in apis:
            fh.write(f'  | .{a}, v, x => {a}Response.of v x {{}}\n')
        fh.write(f'\ntheorem Api.resp_decodes : (a : Api) → {hy} → (a = .CreateTopics → v < 5) → (x : Protocol.Val) →\n'
                 '    (Protocol.response a).Valid false v x →\n'
                 '    Reads (a.resp.decode v a.resp.zero) ((Protocol.response a).wire false v x) (a.respOf v x)\n')
        for a in apis:
            h = hyp(a + 'Response')
            fh.write(f'  | .{a}, _, hv, {"h" if h else "_"}, x, hx => {a}Response.decodes hv{" (h rfl)" if h else ""} x hx {{}}\n')
        fh.write(f'\ntheorem Api.resp_parses : (a : Api) → {hy} → (a = .CreateTopics → v < 5) →\n'
                 '    Protocol.Parses (a.resp.decode v a.resp.zero) ((Protocol.response a).message v) (a.respOf v)\n')
        for a in apis:
            h = hyp(a + 'Response')
            fh.write(f'  | .{a}, _, hv, {"h" if h else "_"} => {a}Response.parses hv{" (h rfl)" if h else ""} {{}}\n')
        fh.write(f'\ntheorem Api.resp_shown : (a : Api) → {hy} → (a = .CreateTopics → v < 5) → (x : Protocol.Val) →\n'
                 '    (Protocol.response a).Typed v x →\n'
                 '    (Protocol.response a).shows v x (a.respVal (a.respOf v x)) = true\n')
        for a in apis:
            h = hyp(a + 'Response')
            fh.write(f'  | .{a}, _, hv, {"h" if h else "_"}, x, hx => {a}Response.shown hv{" (h rfl)" if h else ""} x hx\n')
        fh.write('\nend Kafka\n')
    with open(os.path.join(ROOT, 'Served.lean'), 'w') as fh:
        for a in apis:
            fh.write(f'import Verif.Protocol.Asked.{a}\n')
        fh.write('import Verif.Protocol.Conform\n')
        fh.write('/-!\nGenerated by tools/gen_protocol.py: what a broker reads and writes with the messages of all APIs.\n-/\n'
                 'namespace Kafka\n\nopen Msg\n\n')
        fh.write('theorem Api.resp_conforms : (a : Api) → (v : Int16) → (hv : 0 ≤ v) → (a = .CreateTopics → v < 5) → (r : a.resp.T) →\n'
                 '    (Protocol.response a).wire false v (a.respVal r) = a.respLayout.wire v r\n')
        for a in apis:
            h = hyp(a + 'Response')
            fh.write(f'  | .{a}, _, hv, {"h" if h else "_"}, t => {a}Response.conforms hv{" (h rfl)" if h else ""} t\n')
        fh.write('\n/-- No slice of scalars is nil where the protocol has no null. -/\ndef Api.respFull : (a : Api) → Int16 → a.resp.T → Prop\n')
        for a in apis:
            fh.write(f'  | .{a} => {a}Response.Full\n')
        fh.write('\ntheorem Api.resp_valid : (a : Api) → (v : Int16) → (hv : 0 ≤ v) → (a = .CreateTopics → v < 5) → (r : a.resp.T) →\n'
                 '    a.respLayout.Fits v r → a.respFull v r → (Protocol.response a).Valid true v (a.respVal r)\n')
        for a in apis:
            h = hyp(a + 'Response')
            fh.write(f'  | .{a}, _, hv, {"h" if h else "_"}, t, hf, hF => {a}Response.valid hv{" (h rfl)" if h else ""} t hf hF\n')
        fh.write('\n/-- What is read from the request `x`. -/\ndef Api.reqOf : (a : Api) → Int16 → Protocol.Val → a.req.T\n')
        for a in apis:
            fh.write(f'  | .{a}, v, x => {a}Request.of v x {{}}\n')
        fh.write('\n/-- A request as a value of the protocol, with zero for the one field of the protocol that the client does not have\n'
                 '(the commit timestamp of OffsetCommit version 1). -/\ndef Api.reqAsked : (a : Api) → a.req.T → Protocol.Val\n')
        for a in apis:
            fh.write(f'  | .{a} => {a}Request.{"asked" if a + "Request" in seen else "val"}\n')
        fh.write('\ntheorem Api.req_asked_conforms : (a : Api) → (v : Int16) → (hv : 0 ≤ v) → (a = .OffsetCommit → v ≠ 1) → (r : a.req.T) →\n'
                 '    (Protocol.request a).wire false v (a.reqAsked r) = a.reqLayout.wire v r\n')
        for a in apis:
            h = hyp(a + 'Request')
            fh.write(f'  | .{a}, _, hv, {"h" if h else "_"}, t => {a}Request.{"asked_" if h else ""}conforms hv{" (h rfl)" if h else ""} t\n')
        fh.write('\ntheorem Api.req_decodes : (a : Api) → (v : Int16) → (hv : 0 ≤ v) → (a = .OffsetCommit → v ≠ 1) → (x : Protocol.Val) →\n'
                 '    (Protocol.request a).Valid false v x →\n'
                 '    Reads (a.req.decode v a.req.zero) ((Protocol.request a).wire false v x) (a.reqOf v x)\n')
        for a in apis:
            h = hyp(a + 'Request')
            fh.write(f'  | .{a}, _, hv, {"h" if h else "_"}, x, hx => {a}Request.decodes hv{" (h rfl)" if h else ""} x hx {{}}\n')
        fh.write('\ntheorem Api.req_parses : (a : Api) → (v : Int16) → (hv : 0 ≤ v) → (a = .OffsetCommit → v ≠ 1) →\n'
                 '    Protocol.Parses (a.req.decode v a.req.zero) ((Protocol.request a).message v) (a.reqOf v)\n')
        for a in apis:
            h = hyp(a + 'Request')
            fh.write(f'  | .{a}, _, hv, {"h" if h else "_"} => {a}Request.parses hv{" (h rfl)" if h else ""} {{}}\n')
        fh.write('\ntheorem Api.req_shown : (a : Api) → (v : Int16) → (hv : 0 ≤ v) → (a = .OffsetCommit → v ≠ 1) → (x : Protocol.Val) →\n'
                 '    (Protocol.request a).Typed v x →\n'
                 '    (Protocol.request a).shows v x (a.reqAsked (a.reqOf v x)) = true\n')
        for a in apis:
            h = hyp(a + 'Request')
            fh.write(f'  | .{a}, _, hv, {"h" if h else "_"}, x, hx => {a}Request.shown hv{" (h rfl)" if h else ""} x hx\n')
        fh.write('\nend Kafka\n')


if __name__ == "__main__":
    main()
