"""Generate the Lean model, specification and proofs of the 218 message structures.

Model:  lean/Verif/Gen/Model/<Api>.lean   from the Size, Encode and Decode functions, each
        parsed separately by parse_messages.py, one Lean line per Go statement.
Spec:   lean/Verif/Gen/Spec/<Api>.lean    wire format, Fits, seen, Canon.
Proof:  lean/Verif/Gen/Proof/<Api>.lean   the laws of Verif.Message.StepLemmas.Lawful.
"""
import os
import re
import sys

sys.path.insert(0, os.path.dirname(__file__))
from parse_messages import parse

ROOT = os.path.join(os.path.dirname(os.path.abspath(__file__)), '..', 'lean', 'Verif', 'Gen')
SRC = 'message/messages.gen.go'

LEAN_TY = {'bool': 'Bool', 'int8': 'Int8', 'int16': 'Int16', 'int32': 'Int32', 'int64': 'Int64',
           'string': 'GoString', '[]byte': 'Slice Byte', '[]int32': 'Slice Int32',
           '[]int64': 'Slice Int64', '[]string': 'Slice GoString'}
ZERO = {'bool': 'false', 'int8': '0', 'int16': '0', 'int32': '0', 'int64': '0', 'string': '[]'}
LOW = {'Bool': 'bool', 'Int8': 'int8', 'Int16': 'int16', 'Int32': 'int32', 'Int64': 'int64',
       'String': 'string', 'Bytes': 'bytes', 'Int32Array': 'int32Array', 'Int64Array': 'int64Array',
       'StringArray': 'stringArray'}
FITS = {'String': 'FitsString', 'Bytes': 'FitsSlice', 'Int32Array': 'FitsSlice',
        'Int64Array': 'FitsSlice', 'StringArray': 'FitsStrings'}


def fid(f):
    return '«Type»' if f == 'Type' else f


def cond(g, v='version'):
    lo, hi = g
    return f'{v} ≥ {lo}' if hi is None else f'{v} ≥ {lo} ∧ {v} ≤ {hi}'


def elem(st, f):
    for n, t, _ in st.fields:
        if n == f:
            assert t.startswith('[]')
            return t[2:]
    raise KeyError(f)


def chain(parts, op, nil):
    if not parts:
        return nil
    out = '    ' + parts[0]
    for p in parts[1:]:
        out += f' {op}\n    ' + p
    return out.lstrip() if False else out


def model(st):
    n = st.name
    o = []
    doc = f'{SRC}:{st.line}-{st.fields[-1][2] + 1 if st.fields else st.line + 1} `type {n} struct`'
    o.append(f'/-- {doc}; the defaults are the Go zero values. -/')
    o.append(f'@[ext] structure {n} where')
    for f, t, _ in st.fields:
        if t in LEAN_TY:
            o.append(f'  {fid(f)} : {LEAN_TY[t]} := {ZERO.get(t, "none")}')
        else:
            o.append(f'  {fid(f)} : Slice {t[2:]} := none')
    o.append('')
    # size
    a, b, ops = st.size
    parts = []
    for op in ops:
        if op['kind'] == 'const':
            s = f"Sizeof.add Sizeof.{LOW[op['what']]}"
        elif op['kind'] == 'fn':
            s = f"Sizeof.add (Sizeof.{LOW[op['what']]} t.{fid(op['field'])})"
        else:
            s = f"Sizeof.structs ({elem(st, op['field'])}.size version) t.{fid(op['field'])}"
        if op['guard']:
            s = f"onlyIf ({cond(op['guard'])}) ({s})"
        parts.append(s)
    vv = 'version' if any('version' in p for p in parts) else '_version'
    tt = 't' if any(re.search(r'\bt\.', p) for p in parts) else '_t'
    o.append(f'/-- {SRC}:{a}-{b} `{n}.Size` -/')
    o.append(f'def {n}.size ({vv} : Int16) ({tt} : {n}) : Int32 :=')
    body = chain(parts, ';;', '    nop')
    o.append('   (' + body[4:] + ') 0')
    o.append('')
    # encode
    a, b, ops = st.encode
    parts = []
    for op in ops:
        if op['kind'] == 'put':
            s = f"(·.put{op['what']} t.{fid(op['field'])})"
        else:
            s = f"Encoder.putStructs ({elem(st, op['field'])}.encode version) t.{fid(op['field'])}"
        if op['guard']:
            s = f"onlyIf ({cond(op['guard'])}) " + (s if s.startswith('(') else f'({s})')
        parts.append(s)
    vv = 'version' if any('version' in p for p in parts) else '_version'
    tt = 't' if any(re.search(r'\bt\.', p) for p in parts) else '_t'
    o.append(f'/-- {SRC}:{a}-{b} `{n}.Encode` -/')
    o.append(f'def {n}.encode ({vv} : Int16) ({tt} : {n}) : Encoder → Encoder :=')
    o.append(chain(parts, ';;', '    nop'))
    o.append('')
    # decode
    a, b, ops = st.decode
    parts = []
    for op in ops:
        f = fid(op['field'])
        setter = f"(fun t x => {{ t with {f} := x }})"
        if op['kind'] == 'get':
            s = f"Dec.field Dec.{LOW[op['what']]} {setter}"
        else:
            s = f"Dec.fieldStructs ({op['elem']}.decode version {{}}) (·.{f}) {setter}"
        if op['guard']:
            s = f"Dec.onlyIf ({cond(op['guard'])}) ({s})"
        parts.append(s)
    vv = 'version' if any('version' in p for p in parts) else '_version'
    o.append(f'/-- {SRC}:{a}-{b} `{n}.Decode`; the second argument is the receiver. -/')
    o.append(f'def {n}.decode ({vv} : Int16) : {n} → Dec {n} :=')
    o.append(chain(parts, ';>', '    Dec.nop'))
    o.append('')
    o.append(f'/-- The type `{n}` with its methods. -/')
    o.append(f'def {n}.type : MsgType :=')
    o.append(f'  {{ name := "{n}", T := {n}, zero := {{}}, size := {n}.size, encode := {n}.encode,')
    o.append(f'    decode := {n}.decode }}')
    o.append('')
    return '\n'.join(o)


def spec(st):
    n = st.name
    ops = st.encode[2]
    o = []
    byf = {op['field']: op for op in ops}
    parts, fits, seen, canon = [], [], [], []
    for op in ops:
        f = fid(op['field'])
        if op['kind'] == 'put':
            s = f"Wire.{LOW[op['what']]} t.{f}"
            if op['what'] in FITS:
                fits.append((f, op['guard'], f"{FITS[op['what']]} t.{f}"))
        else:
            e = elem(st, op['field'])
            s = f"Wire.array ({e}.wire version) t.{f}"
            fits.append((f, op['guard'], f"FitsAll ({e}.Fits version) t.{f}"))
        if op['guard']:
            s = f"Wire.when ({cond(op['guard'])}) ({s})"
        parts.append(s)
    for f0, ty, _ in st.fields:
        f = fid(f0)
        op = byf.get(f0)
        if ty == '[]byte':
            v = f't.{f}.nonNil'
            cc = f't.{f}.NotNil'
        elif ty in LEAN_TY:
            v = f't.{f}'
            cc = None
        else:
            v = f'some (t.{f}.elems.map fun x => x.seen version {{}})'
            cc = f'CanonAll ({ty[2:]}.Canon version) t.{f}'
        z = ZERO.get(ty, 'none')
        if op is None:
            seen.append((f, f't0.{f}'))
            canon.append((f, f't.{f} = {z}'))
        elif op['guard'] is None:
            seen.append((f, v))
            if cc:
                canon.append((f, cc))
        else:
            c = cond(op['guard'])
            seen.append((f, f'if {c} then {v} else t0.{f}'))
            absent = f't.{f} = {z}'
            if cc:
                canon.append((f, f'({c} → {cc}) ∧ (¬({c}) → {absent})'))
            else:
                canon.append((f, f'¬({c}) → {absent}'))

    def arg(v, texts, alt):
        return v if any(re.search(r'\b' + re.escape(v) + r'\b', t) for t in texts) else alt
    o.append(f'/-- Wire format of `{n}`. -/')
    o.append(f"def {n}.wire ({arg('version', parts, '_version')} : Int16) ({arg('t', parts, '_t')} : {n}) : List Byte :=")
    if parts:
        out = '  ' + parts[0]
        for p in parts[1:]:
            out += ' ++\n  ' + p
        o.append(out)
    else:
        o.append('  []')
    o.append('')
    if fits:
        o.append(f'/-- Lengths are representable. -/')
        o.append(f"structure {n}.Fits (version : Int16) (t : {n}) : Prop where")
        for f, g, s in fits:
            o.append(f'  {f} : {cond(g) + " → " if g else ""}{s}')
    else:
        o.append(f'/-- No field has a length prefix. -/')
        o.append(f'def {n}.Fits (_version : Int16) (_t : {n}) : Prop := True')
    o.append('')
    o.append(f'/-- The value after `t` has been decoded into `t0`. -/')
    texts = [s for _, s in seen]
    o.append(f"def {n}.seen ({arg('version', texts, '_version')} : Int16) ({arg('t', texts, '_t')} {arg('t0', texts, '_t0')} : {n}) : {n} :=")
    if seen:
        o.append('  { ' + ',\n    '.join(f'{f} := {s}' for f, s in seen) + ' }')
    else:
        o.append('  {}')
    o.append('')
    texts = [s for _, s in canon]
    if canon:
        o.append(f'/-- Nothing in `t` is lost at this version. -/')
        o.append(f"structure {n}.Canon (version : Int16) (t : {n}) : Prop where")
        for f, s in canon:
            o.append(f'  {f} : {s}')
    else:
        o.append(f'/-- Nothing can be lost. -/')
        o.append(f'def {n}.Canon (_version : Int16) (_t : {n}) : Prop := True')
    o.append('')
    o.append(f'/-- The specification of `{n}`. -/')
    o.append(f'def {n}.layout : Layout {n}.type :=')
    o.append(f'  {{ wire := {n}.wire, Fits := {n}.Fits, seen := {n}.seen, Canon := {n}.Canon }}')
    o.append('')
    return '\n'.join(o)


def dotchain(parts, nil):
    if not parts:
        return '  ' + nil
    out = '  ' + parts[0] if len(parts) == 1 else '  (' * 1 + parts[0] + ')'
    if len(parts) == 1:
        return out
    for p in parts[1:]:
        out += f'\n    |>.andThen ({p})'
    return out


def proof(st):
    n = st.name
    ops = st.encode[2]
    byf = {op['field']: op for op in ops}
    o = []
    em, gr, rd, tm, cm, cn, ag = [], [], [], [], [], [], []
    for op in ops:
        f = fid(op['field'])
        g = op['guard']
        setter = f'fun (t : {n}) x => {{ t with {f} := x }}'
        if op['kind'] == 'put':
            w = LOW[op['what']]
            e = f'emits_{w} t.{f}'
            z = f'Grows.add (sized_{w} t.{f})'
            if op['what'] in FITS:
                r = f'reads_{w} (h.{f} hc)' if g else f'reads_{w} h.{f}'
            else:
                r = f'reads_{w} t.{f}'
            if g:
                hc = 'hc' if op['what'] in FITS else '_'
                r = f'Step.optField (c := {cond(g)}) (set := {setter}) (·.{f}) (fun _ => rfl) fun {hc} => {r}'
            else:
                r = f'Step.field (set := {setter}) ({r})'
            t = f'TameStep.field tame_{w}'
            c = f'CalmStep.field tame_{w} calm_{w}'
            if op['what'] == 'Bytes':
                a = f'again_optNonNil t.{f} t0.{f}' if g else 'rfl'
            else:
                a = f'again_opt Wire.{w} t.{f} t0.{f}' if g else 'rfl'
        else:
            el = elem(st, op['field'])
            e = f'emits_structs ({el}.emits version) t.{f}'
            z = f'Grows.structs ({el}.sized version) t.{f}'
            fa = f'(fun x hx => {el}.reads version x hx {{}})'
            gs = f'(get := fun (t : {n}) => t.{f}) (set := {setter})'
            r = f'Step.optStructs (c := {cond(g)}) {gs} (fun _ => rfl) {fa} h.{f}' if g else f'Step.structs {gs} {fa} h.{f}'
            t = f'TameStep.structs ({el}.tame version {{}})'
            c = f'CalmStep.structs ({el}.tame version {{}}) ({el}.calm version {{}})'
            ha = f'(fun x => {el}.again version x {{}})'
            a = f'again_optStructs {ha} t.{f} t0.{f}' if g else f'again_structs {ha} t.{f}'
        if g:
            e, z, t, c = (f'Emits.onlyIf ({e})', f'Grows.onlyIf ({z})', f'TameStep.onlyIf ({t})', f'CalmStep.onlyIf ({c})')
        em.append(e), gr.append(z), rd.append(r), tm.append(t), cm.append(c), ag.append(a)
    for f0, ty, _ in st.fields:
        f = fid(f0)
        op = byf.get(f0)
        if op is None:
            cn.append(f'h.{f}.symm')
            continue
        g = op['guard']
        if ty == '[]byte':
            cn.append(f'canon_optNonNil h.{f}.1 h.{f}.2' if g else f'canon_nonNil h.{f}')
        elif ty in LEAN_TY:
            cn.append(f'canon_opt h.{f}' if g else 'rfl')
        else:
            el = ty[2:]
            cn.append(f'canon_optStructs ({el}.canon version) h.{f}.1 h.{f}.2' if g else f'canon_structs ({el}.canon version) h.{f}')

    hfit = 'h' if any('h.' in r for r in rd) else '_h'
    o.append(f'theorem {n}.emits (version : Int16) (t : {n}) :')
    o.append(f'    Emits ({n}.encode version t) ({n}.wire version t) :=')
    o.append(dotchain(em, 'Emits.nop'))
    o.append(f'theorem {n}.sized (version : Int16) (t : {n}) :')
    o.append(f'    Sized ({n}.size version t) ({n}.wire version t) :=')
    o.append('  Grows.sized (' + dotchain(gr, 'Grows.nop').lstrip() + ')')
    o.append(f'theorem {n}.reads (version : Int16) (t : {n}) ({hfit} : t.Fits version) (t0 : {n}) :')
    o.append(f'    Reads ({n}.decode version t0) ({n}.wire version t) (t.seen version t0) :=')
    if rd:
        o.append('  (' + dotchain(rd, '').lstrip() + ' : Step _ _ _) t0')
    else:
        o.append('  Step.nop t0')
    o.append(f'theorem {n}.tame (version : Int16) (t0 : {n}) : Tame ({n}.decode version t0) :=')
    o.append('  (' + dotchain(tm, 'TameStep.nop').lstrip() + ' : TameStep _) t0')
    o.append(f'theorem {n}.calm (version : Int16) (t0 : {n}) :')
    o.append(f'    Calm ({n}.decode version t0) (fun _ => True) :=')
    o.append('  (' + dotchain(cm, 'CalmStep.nop').lstrip() + ' : CalmStep _).2 t0')
    hc = 'h' if any('h.' in x for x in cn) else '_h'
    o.append(f'theorem {n}.canon (version : Int16) (t : {n}) ({hc} : t.Canon version) :')
    o.append(f'    t.seen version {{}} = t :=')
    if cn:
        o.append(f'  {n}.ext ' + ' '.join(f'({x})' if ' ' in x else x for x in cn))
    else:
        o.append('  rfl')
    o.append(f'theorem {n}.again (version : Int16) (t t0 : {n}) :')
    o.append(f'    {n}.wire version (t.seen version t0) = {n}.wire version t :=')
    if ag:
        t = ag[0]
        for x in ag[1:]:
            t = f'app_congr ({t}) ({x})'
        o.append('  ' + t)
    else:
        o.append('  rfl')
    o.append(f'theorem {n}.lawful : Lawful {n}.type {n}.layout :=')
    o.append(f'  ⟨{n}.emits, {n}.sized, {n}.reads, {n}.tame, {n}.calm, {n}.canon, {n}.again⟩')
    o.append('')
    return '\n'.join(o)


def gates(st):
    """The fields of a structure that only some versions have."""
    n = st.name
    out, names = [], []
    ops = st.decode[2]
    used = {op['field'] for op in ops}
    assert used == {f for f, _, _ in st.fields}, n
    for op0 in ops:
        g = op0['guard']
        if not g:
            continue
        f0 = op0['field']
        f = fid(f0)
        ty = next(t for a, t, _ in st.fields if a == f0)
        lt = LEAN_TY.get(ty, f'Slice {ty[2:]}')
        nm = f'{n}.gate{f0}'
        out.append(f'/-- `{n}.{f0}` -/')
        out.append(f'def {nm} : Gate :=')
        out.append(f'  {{ M := {n}.type, L := {n}.layout, field := "{f0}", α := {lt}, present := fun v => {cond(g, "v")},')
        out.append(f'    get := fun t => {n}.{f} t, set := fun t x => {n}_with_{f0} t x }}')
        pre = [f'/-- `t.{f0} = x` -/', f'def {n}_with_{f0} (t : {n}) (x : {lt}) : {n} := {{ t with {f} := x }}']
        out[-4:-4] = pre
        sz = [op for op in st.size[2] if op['guard'] == g]
        out.append(f'theorem {nm}_holds : {nm}.Holds where')
        out.append('  get_set _ _ := rfl')
        out.append('  encode v h t x := by')
        out.append(f'    change {n}.encode v ({n}_with_{f0} t x) = {n}.encode v t')
        out.append(f'    change ¬({cond(g, "v")}) at h')
        out.append(f'    simp only [{n}.encode, {n}_with_{f0}, onlyIf_neg h]')
        out.append('  size v h t x := by')
        out.append(f'    change {n}.size v ({n}_with_{f0} t x) = {n}.size v t')
        out.append(f'    change ¬({cond(g, "v")}) at h')
        out.append(f'    simp only [{n}.size, {n}_with_{f0}, onlyIf_neg h]')
        out.append('  decode v h := by')
        out.append(f'    change ¬({cond(g, "v")}) at h')
        out.append(f'    refine (?_ : Keeps (fun t : {n} => t.{f}) ({n}.decode v))')
        out.append(f'    unfold {n}.decode')
        out.append("    repeat' first")
        out.append('      | exact Keeps.absent h')
        out.append('      | apply Keeps.andThen')
        out.append('      | exact Keeps.field fun _ _ => rfl')
        out.append('      | exact Keeps.fieldStructs fun _ _ => rfl')
        out.append('      | apply Keeps.onlyIf')
        out.append('  carried v h t t0 t1 := by')
        out.append(f'    change ({n}.seen v t t0).{f} = ({n}.seen v t t1).{f}')
        out.append(f'    change {cond(g, "v")} at h')
        out.append(f'    simp only [{n}.seen, if_pos h]')
        out.append('')
        names.append(nm)
    return '\n'.join(out), names


ATLEAST = {'bool': 1, 'int8': 1, 'int16': 2, 'int32': 4, 'int64': 8, 'string': 2, 'bytes': 4, 'int32Array': 4,
           'int64Array': 4, 'stringArray': 4}


def alloc(st, known):
    """Decode once more, counting the memory asked for; known: struct name -> (bytes it takes at least, depth)."""
    n = st.name
    a, b, ops = st.decode
    parts, er, wi, least, depth = [], [], [], 0, 0
    # a structure of which every field depends on the version takes bytes at the versions of its first field
    first = ops[0]['guard'] if ops and all(op['guard'] for op in ops) else None
    for op in ops:
        f = fid(op['field'])
        setter = f"(fun t x => {{ t with {f} := x }})"
        if op['kind'] == 'get':
            w = LOW[op['what']]
            s = f"ADec.field ADec.{w} {setter}"
            if w.endswith('Array'):
                e = f"ErasesStep.field (.arrayOf {'.string' if w == 'stringArray' else '(.free _)'})"
            else:
                e = 'ErasesStep.field ' + ('.string' if w == 'string' else '(.free _)')
            x = f"WithinStep.field .{w}"
            k, d = ATLEAST[w], int(w.endswith('Array'))
        else:
            el = op['elem']
            assert known[el][0] >= 1 and known[el][2] in (None, op['guard']), (n, el)
            hyp = ' h' if known[el][2] else ''
            s = f"ADec.fieldStructs ({el}.decodeA version {{}}) (·.{f}) {setter}"
            e = f"ErasesStep.structs ({el}.erases version {{}})"
            x = f"WithinStep.structs (({el}.within version {{}}{hyp}).mono (by decide) (Nat.le_refl _))"
            k, d = 4, known[el][1] + 1
        if op['guard']:
            s = f"ADec.onlyIf ({cond(op['guard'])}) ({s})"
            e = f"ErasesStep.onlyIf ({e})"
            if first and not wi:
                x = f"WithinStep.present h ({x})"
            else:
                x = f"WithinStep.onlyIf (fun {'h' if op['kind'] != 'get' and known[op['elem']][2] else '_'} => {x})"
                k = 0
        parts.append(s)
        er.append(e)
        wi.append(x)
        least += k
        depth = max(depth, d)
    known[n] = (least, depth, first)
    vv = 'version' if any('version' in p for p in parts) else '_version'
    o = [f'/-- {SRC}:{a}-{b} `{n}.Decode`, with the memory it asks for -/']
    o.append(f'def {n}.decodeA ({vv} : Int16) : {n} → ADec {n} :=')
    o.append(chain(parts, ';>>', '    ADec.nop'))
    o.append(f'theorem {n}.erases (version : Int16) (t : {n}) : Erases ({n}.decodeA version t) ({n}.decode version t) :=')
    o.append('  (' + dotchain(er, 'ErasesStep.nop').lstrip() + ' : ErasesStep _ _) t')
    hyp = f'(h : {cond(first)}) ' if first else ''
    o.append(f'theorem {n}.within (version : Int16) (t : {n}) {hyp}: Within ({n}.decodeA version t) {least} {depth} :=')
    o.append('  ((' + dotchain(wi, 'WithinStep.nop').lstrip() + ' : WithinStep _ _ _) t).mono (by decide) (by decide)')
    o.append('')
    return '\n'.join(o)


def work(st, known):
    """Decode once more, counting the steps taken; known: struct name -> (slack, first guard)."""
    n = st.name
    a, b, ops = st.decode
    parts, er, sp, sp0, least = [], [], [], [], 0
    first = ops[0]['guard'] if ops and all(op['guard'] for op in ops) else None
    for op in ops:
        f = fid(op['field'])
        setter = f"(fun t x => {{ t with {f} := x }})"
        if op['kind'] == 'get':
            w = LOW[op['what']]
            s = f"ADec.field WDec.{w} {setter}"
            if w.endswith('Array'):
                e = f"ErasesStep.field (.arrayOfW {'.stringW' if w == 'stringArray' else '(.read _)'})"
            else:
                e = 'ErasesStep.field ' + ('.stringW' if w == 'string' else '(.read _)')
            x = f"SpendsStep.field .{w}"
            k = 2 * ATLEAST[w] - 1
        else:
            el = op['elem']
            assert known[el][0] >= 1 and known[el][1] in (None, op['guard']), (n, el)
            hyp = ' h' if known[el][1] else ''
            s = f"WDec.fieldStructs ({el}.decodeW version {{}}) (·.{f}) {setter}"
            e = f"ErasesStep.structsW ({el}.erasesW version {{}})"
            x = f"SpendsStep.structs (({el}.spends version {{}}{hyp}).mono (by decide) (Nat.le_refl _))"
            k = 7
        x0 = x
        if op['guard']:
            s = f"ADec.onlyIf ({cond(op['guard'])}) ({s})"
            e = f"ErasesStep.onlyIf ({e})"
            x0 = f"SpendsStep.onlyIf (fun {'h' if op['kind'] != 'get' and known[op['elem']][1] else '_'} => {x})"
            if first and not sp:
                x = f"SpendsStep.present h ({x})"
            else:
                x = x0
                k = 0
        parts.append(s)
        er.append(e)
        sp.append(x)
        sp0.append(x0)
        least += k
    known[n] = (least, first)
    vv = 'version' if any('version' in p for p in parts) else '_version'
    o = [f'/-- {SRC}:{a}-{b} `{n}.Decode`, with the steps it takes -/']
    o.append(f'def {n}.decodeW ({vv} : Int16) : {n} → ADec {n} :=')
    o.append(chain(parts, ';>>', '    ADec.nop'))
    o.append(f'theorem {n}.erasesW (version : Int16) (t : {n}) : Erases ({n}.decodeW version t) ({n}.decode version t) :=')
    o.append('  (' + dotchain(er, 'ErasesStep.nop').lstrip() + ' : ErasesStep _ _) t')
    hyp = f'(h : {cond(first)}) ' if first else ''
    o.append(f'theorem {n}.spends (version : Int16) (t : {n}) {hyp}: Spends ({n}.decodeW version t) {least} 1 :=')
    o.append('  ((' + dotchain(sp, 'SpendsStep.nop').lstrip() + ' : SpendsStep _ _) t).mono (by decide) (by decide)')
    if first:
        o.append(f'theorem {n}.spends0 (version : Int16) (t : {n}) : Spends ({n}.decodeW version t) 0 1 :=')
        o.append('  ((' + dotchain(sp0, 'SpendsStep.nop').lstrip() + ' : SpendsStep _ _) t).mono (by decide) (by decide)')
    else:
        o.append(f'theorem {n}.spends0 (version : Int16) (t : {n}) : Spends ({n}.decodeW version t) 0 1 :=')
        o.append(f'  ({n}.spends version t).mono (Nat.zero_le _) (Nat.le_refl _)')
    o.append('')
    return '\n'.join(o)


def reuse(st):
    """What Decode does with a receiver that has been used before."""
    n = st.name
    dec = st.decode[2]
    enc = st.encode[2]
    pos = {op['field']: i for i, op in enumerate(dec)}
    byf = {op['field']: op for op in dec}
    over, at, nulls = [], [], []
    for f0, ty, _ in st.fields:
        f = fid(f0)
        op = byf.get(f0)
        if op is None:
            over.append((f, f't0.{f}'))
            at.append((f, f't0.{f}'))
            continue
        st_arr = op['kind'] != 'get'
        v = f'y.{f}.or t0.{f}' if st_arr else f'y.{f}'
        if op['guard']:
            v = f"if {cond(op['guard'])} then {v} else t0.{f}"
        over.append((f, v))
        at.append((f, v if st_arr else f'upto k {pos[f0]} ({v}) t0.{f}'))
    for op in enc:
        if op['kind'] != 'put':
            nulls.append((op, f"({cond(op['guard'])}) ∧ y.{fid(op['field'])} = none" if op['guard'] else f"y.{fid(op['field'])} = none"))

    def arg(v, texts, alt):
        return v if any(re.search(r'\b' + re.escape(v) + r'\b', t) for t in texts) else alt
    o = []
    texts = [s for _, s in over]
    o.append(f'/-- What `t0` becomes where a new `{n}` becomes `y`. -/')
    o.append(f"def {n}.over ({arg('version', texts, '_version')} : Int16) ({arg('y', texts, '_y')} {arg('t0', texts, '_t0')} : {n}) : {n} :=")
    o.append('  { ' + ',\n    '.join(f'{f} := {s}' for f, s in over) + ' }' if over else '  {}')
    o.append('')
    texts = [s for _, s in nulls]
    o.append(f'/-- An array of structures is nil. -/')
    o.append(f"def {n}.Nulls ({arg('version', texts, '_version')} : Int16) ({arg('y', texts, '_y')} : {n}) : Prop :=")
    o.append('  ' + (' ∨ '.join(s for _, s in nulls) if nulls else 'False'))
    o.append('')
    o.append(f'/-- `{n}` in use again. -/')
    o.append(f'def {n}.reuse : Reuse {n}.type := {{ over := {n}.over, Nulls := {n}.Nulls }}')
    o.append('')
    texts = [s for _, s in at]
    o.append(f'/-- The same after the first `k` statements of `Decode`. -/')
    o.append(f"def {n}.overAt ({arg('version', texts, '_version')} : Int16) ({arg('k', texts, '_k')} : Nat) ({arg('y', texts, '_y')} {arg('t0', texts, '_t0')} : {n}) : {n} :=")
    o.append('  { ' + ',\n    '.join(f'{f} := {s}' for f, s in at) + ' }' if at else '  {}')
    o.append('')
    # decode
    steps = []
    for i, op in enumerate(dec):
        if op['kind'] == 'get':
            if op['guard']:
                s = f'.onlyIf (fun hc => .field fun _ _ => by simp only [{n}.overAt, if_pos hc]; rfl) fun hc _ => by simp only [{n}.overAt, if_neg hc]; rfl'
            else:
                s = '.field fun _ _ => rfl'
        else:
            if op['guard']:
                s = (f'.onlyIf (fun hc => .structs (fun _ _ => by simp only [{n}.overAt, if_pos hc]; rfl) fun _ => by simp only [{n}.overAt, if_pos hc]; rfl) '
                     f'fun hc _ => by simp only [{n}.overAt, if_neg hc]; rfl')
            else:
                s = '.structs (fun _ _ => rfl) fun _ => rfl'
        steps.append(f'(({s}) : Sim ({n}.overAt v {i} · t0) ({n}.overAt v {i + 1} · t0) _)')
    o.append(f'theorem {n}.sim (v : Int16) (t0 : {n}) : Sim ({n}.overAt v 0 · t0) ({n}.overAt v {len(dec)} · t0) ({n}.decode v) :=')
    if steps:
        o.append('  ' + '\n    |>.andThen '.join(steps))
    else:
        o.append('  .nop fun _ => rfl')
    o.append(f'theorem {n}.reusable : {n}.reuse.Holds {n}.layout where')
    o.append(f'  decode v t0 d := by')
    o.append(f'    have h := {n}.sim v t0 {{}} d')
    o.append(f'    have e : {n}.overAt v 0 {{}} t0 = t0 := by first | rfl | (simp only [{n}.overAt, upto_zero, Option.none_or, ite_self] <;> rfl)')
    o.append(f'    simp only [e] at h')
    o.append(f'    exact h')

    def orpath(k):
        m = len(nulls)
        s = 'Or.inr (' * k
        return s, ('Or.inl ' if k < m - 1 else ''), ')' * k

    def inj(k, term):
        a, b, c = orpath(k)
        return f'{a}{b}{term}{c}'
    idx = {op['field']: k for k, (op, _) in enumerate(nulls)}
    parts = []
    for op in enc:
        f = fid(op['field'])
        if op['kind'] == 'put':
            parts.append(f"(again_opt Wire.{LOW[op['what']]} y.{f} t0.{f})" if op['guard'] else 'rfl')
        elif op['guard']:
            parts.append(f"(same_when fun hc hn => h ({inj(idx[op['field']], '⟨hc, hn⟩')}))")
        else:
            parts.append(f"(same_or fun hn => h ({inj(idx[op['field']], 'hn')}))")
    term = parts[0] if parts else 'rfl'
    for q in parts[1:]:
        term = f'(app_congr {term} {q})'
    hh = 'h' if 'h ' in term or '=> h' in term else '_h'
    o.append(f"  same v y t0 {hh} := {term if term != 'rfl' else 'rfl'}")
    if not nulls:
        o.append('  stale _ _ h := h.elim')
        o.append('')
        return '\n'.join(o)
    o.append(f'  stale v y h := by')
    o.append(f'    obtain ' + ' | '.join('⟨hc, h⟩' if op['guard'] else 'h' for op, _ in nulls) + ' := h')
    for op, _ in nulls:
        e = elem(st, op['field'])
        ps = []
        seen = False
        for q in enc:
            f = fid(q['field'])
            if q is op:
                ps.append(('ne', '(stale_when hc h)' if q['guard'] else '(stale_or h)'))
            elif q['kind'] == 'put':
                z = ZERO.get({a: t for a, t, _ in st.fields}[q['field']], 'none')
                ps.append(('eq', f"(again_opt Wire.{LOW[q['what']]} y.{f} {z})" if q['guard'] else 'rfl'))
            else:
                ps.append(('eq', 'none_when' if q['guard'] else 'none_or'))
        kind, term = ps[0]
        for k2, q in ps[1:]:
            if kind == 'ne':
                term = f'(app_ne_left {term} {q})'
            elif k2 == 'ne':
                term, kind = f'(app_ne_right {term} {q})', 'ne'
            else:
                term = f'(app_congr {term} {q})'
        o.append(f"    · exact ⟨({{ {fid(op['field'])} := some [{{}}] }} : {n}), {term}⟩")
    o.append('')
    return '\n'.join(o)


# The numbers of zeros of Verif/Message/Filled.lean.
FILL = {'bool': (1, 1), 'int8': (1, 1), 'int16': (2, 2), 'int32': (4, 4), 'int64': (8, 8), 'string': (2, 2 + 2 ** 15),
        'nullableString': (2, 2 + 2 ** 15), 'bytes': (4, 4 + 2 ** 31), 'int32Array': (4, 8 + 2 ** 33),
        'int64Array': (4, 12 + 2 ** 34), 'stringArray': (4, 6 + 2 ** 15 + 2 ** 32)}
FILLS = {}


def kept(st):
    """Decode once more, with what is in the receiver in case of an error."""
    n = st.name
    a, b, dec = st.decode
    enc = {op['field']: op for op in st.encode[2]}
    types = {f: t for f, t, _ in st.fields}
    parts, same, pieces, cuts, spec = [], [], [], [], {}
    steps, left, begun, fills, zs = [], [], [], [], []
    for i, op in enumerate(dec):
        f = fid(op['field'])
        g = op['guard']
        c = cond(g) if g else None
        setter = f"(fun t x => {{ t with {f} := x }})"
        z = ZERO.get(types[op['field']], 'none')
        if op['kind'] == 'get':
            w = LOW[op['what']]
            s = f"KDec.field Dec.{w} {z} {setter}"
            k = 'KStep.field'
            x = f"Wire.{w} t.{f}"
            val = f't.{f}.nonNil' if op['what'] == 'Bytes' else f't.{f}'
            v = f"Cut.field n (t.ends version {i}) {val} {z}"
            if op['what'] in FITS:
                r = f'reads_{w} (h.{f} hc)' if g else f'reads_{w} h.{f}'
            else:
                r = f'reads_{w} t.{f}'
            hc = 'hc' if op['what'] in FITS else '_'
            p = f'.field Longer.{w} (fun _ => rfl) (fun _ _ => rfl) (fun _ _ => rfl) (fun _ => rfl)'
            left.append(f'r = {n}.first {i} y')
            fl = f'FilledStep.field .{w}'
            zs.append(FILL[w])
            l = f'.optField (fun {hc} => {r}) (fun _ => rfl) (fun _ => rfl)' if g else f'.field ({r}) (fun _ => rfl) (fun _ => rfl)'
        else:
            e = op['elem']
            s = f"KDec.fieldStructs ({e}.decodeK version {{}}) {{}} {setter}"
            k = f"KStep.structs (fun _ => rfl) ({e}.sameK version {{}})"
            x = f"Wire.array ({e}.wire version) t.{f}"
            start = f'(t.ends version {i - 1})' if i else '0'
            v = f"Cut.array n {start} ({e}.wire version) (fun x => x.seen version {{}}) {{}} t.{f}"
            p = f'.structs (get := fun (t : {n}) => t.{f}) (({e}.partsK version).longer {{}}) (fun _ => rfl) (fun _ => rfl) (fun _ _ => rfl) (fun _ _ => rfl) (fun _ _ => rfl) (fun _ => rfl) (fun _ => rfl)'
            bg = f'Cut.begun {{}} (fun t => t.{f}) (fun t x => {{ t with {f} := x }}) ({n}.first {i}) r y'
            begun.append(bg)
            fl = f'FilledStep.structs ({e}.filled version {{}})'
            zs.append((4, 4 + FILLS[e][1] + 2 ** 31 * FILLS[e][0]))
            left.append(f'r = {n}.first {i} y ∨ {bg}')
            l = (f".{'optStructs' if g else 'structs'} ({e}.sameK version {{}}) (fun x hx => {e}.reads version x hx {{}}) h.{f} (fun _ => rfl) (fun _ => rfl)")
        if g:
            s = f"KDec.onlyIf ({c}) ({s})"
            k = f"KStep.onlyIf ({k})"
            x = f"Wire.when ({c}) ({x})"
            v = f"Cut.gate ({c}) ({v}) {z}"
            p = f'.onlyIf ({p}) (fun _ => rfl)'
            fl = f'FilledStep.onlyIf ({fl})'
        fills.append(fl)
        steps.append(f"({p} : Parts ({s}) ({n}.first {i}) ({n}.first {i + 1}) (fun r y => {left[-1]}))")
        parts.append(s)
        same.append(k)
        pieces.append(x)
        stop = f'({n}.ends version t {i})'
        start = f'({n}.ends version t {i - 1})' if i else '0'
        cuts.append(f"({l} : Cuts _ {start} _ {stop} ({n}.cutAt version t {i}) ({n}.cutAt version t {i + 1}))")
        spec[op['field']] = (i, v, z)

    def arg(v, texts, alt):
        return v if any(re.search(r'\b' + re.escape(v) + r'\b', t) for t in texts) else alt
    o = [f'/-- {SRC}:{a}-{b} `{n}.Decode`, with the receiver kept -/']
    o.append(f"def {n}.decodeK ({arg('version', parts, '_version')} : Int16) : KDec {n} :=")
    o.append(chain(parts, ';|>', '    KDec.nop'))
    o.append('')
    o.append(f'/-- Where the fields of `{n}` end. -/')
    o.append(f"def {n}.ends ({arg('version', pieces, '_version')} : Int16) ({arg('t', pieces, '_t')} : {n}) : Nat → Nat :=")
    o.append('  Cut.ends 0 [' + ',\n    '.join(pieces) + ']')
    o.append('')
    full = [(fid(f), spec[f][1] if f in spec else ZERO.get(t, 'none')) for f, t, _ in st.fields]
    at = [(fid(f), f'upto k {spec[f][0]} ({spec[f][1]}) {spec[f][2]}' if f in spec else ZERO.get(t, 'none')) for f, t, _ in st.fields]
    texts = [x for _, x in full]
    o.append(f'/-- What is left of `t` if only its first `n` bytes are there. -/')
    o.append(f"def {n}.cut ({arg('version', texts, '_version')} : Int16) ({arg('n', texts, '_n')} : Nat) ({arg('t', texts, '_t')} : {n}) : {n} :=")
    o.append('  { ' + ',\n    '.join(f'{f} := {x}' for f, x in full) + ' }' if full else '  {}')
    o.append('')
    o.append(f'/-- The same after the first `k` statements of `Decode`. -/')
    o.append(f"def {n}.cutAt ({arg('version', texts, '_version')} : Int16) ({arg('t', texts, '_t')} : {n}) ({arg('k', [x for _, x in at], '_k')} {arg('n', texts, '_n')} : Nat) : {n} :=")
    o.append('  { ' + ',\n    '.join(f'{f} := {x}' for f, x in at) + ' }' if at else '  {}')
    o.append('')
    firsts = [(fid(f), f'upto k {spec[f][0]} y.{fid(f)} {spec[f][2]}' if f in spec else ZERO.get(t, 'none')) for f, t, _ in st.fields]
    texts = [x for _, x in firsts]
    o.append(f'/-- The first `k` fields of `y`, and zeros. -/')
    o.append(f"def {n}.first ({arg('k', texts, '_k')} : Nat) ({arg('y', texts, '_y')} : {n}) : {n} :=")
    o.append('  { ' + ',\n    '.join(f'{f} := {x}' for f, x in firsts) + ' }' if firsts else '  {}')
    o.append('')
    o.append(f'/-- `r` is a beginning of `y`, and zeros. -/')
    o.append(f"def {n}.Part (r y : {n}) : Prop :=")
    o.append(f'  (∃ k, k < {len(dec)} ∧ r = y.first k)' + ''.join(f' ∨\n    {b}' for b in begun))
    o.append('')
    o.append(f'/-- `{n}` with its receiver kept. -/')
    o.append(f'def {n}.keeps : KeptMsg {n}.type := {{ decode := {n}.decodeK, cut := {n}.cut, Part := {n}.Part }}')
    o.append('')
    o.append(f'theorem {n}.sameK (version : Int16) : KStep ({n}.decodeK version) ({n}.decode version) :=')
    o.append(dotchain(same, 'KStep.nop'))
    o.append(f"theorem {n}.cutsK (version : Int16) (t : {n}) (h : t.Fits version) :")
    o.append(f"    Cuts ({n}.decodeK version) 0 ({n}.wire version t) ({n + '.ends version t ' + str(len(dec) - 1) if dec else '0'}) ({n}.cutAt version t 0) ({n}.cutAt version t {len(dec)}) :=")
    o.append('  ' + '\n    |>.andThen '.join(cuts) if cuts else '  .nop')
    whole = 'False' if not left else f'({left[0]})'
    for x in left[1:]:
        whole = f'({whole} ∨ ({x}))'
    o.append(f"theorem {n}.partsK (version : Int16) : Parts ({n}.decodeK version) ({n}.first 0) ({n}.first {len(dec)}) (fun r y => {whole}) :=")
    o.append('  ' + '\n    |>.andThen '.join(steps) if steps else '  .nop (fun _ => rfl)')
    Z, N = zs[0] if zs else (0, 0)
    for z1, n1 in zs[1:]:
        Z, N = Z + z1, max(N + z1, n1)
    FILLS[n] = (Z, N)
    o.append(f'theorem {n}.filled (version : Int16) : FilledStep {Z} {N} ({n}.decode version) :=')
    o.append('  (' + dotchain(fills, '').strip() + ').mono (by decide) (by decide)' if fills else '  .nop')
    alts, j = [], 0
    for i, x in enumerate(left):
        pat = ['.inl'] * (len(left) - 1 - i) + (['.inr'] if i else [])

        def wrap(ps, h):
            for q in reversed(ps):
                h = f'({q} {h})'
            return h
        if '∨' in x:
            alts.append(f"    | {wrap(pat + ['.inl'], 'h')} => .inl ⟨{i}, by decide, h⟩")
            up = ['.inr'] * (j + 1) + (['.inl'] if j + 1 < len(begun) else [])
            alts.append(f"    | {wrap(pat + ['.inr'], 'h')} => {wrap(up, 'h')}")
            j += 1
        else:
            alts.append(f"    | {wrap(pat, 'h')} => {'.inl ' if begun else ''}⟨{i}, by decide, h⟩")
    o.append(f"theorem {n}.part_of (r y : {n}) (h : {whole}) : {n}.Part r y :=")
    o.append('  match h with\n' + '\n'.join(alts) if alts else '  h.elim')
    o.append(f'theorem {n}.keeps_holds : {n}.keeps.Holds {n}.layout :=')
    o.append(f"  KeptMsg.holds {n}.lawful {n}.sameK (stop := fun v t => {n + '.ends v t ' + str(len(dec) - 1) if dec else '0'}) (c := fun v t => {n}.cutAt v t 0) (fun _ _ _ => rfl) {n}.cutsK (c0 := {n}.first 0) rfl {n}.partsK {n}.part_of {n}.filled (by decide) (by decide)")
    o.append('')
    return '\n'.join(o)


def rewrite(st):
    """Encoding what was decoded into a zero value."""
    n = st.name
    steps, proj = [], []
    dec = st.decode[2]
    for i, op in enumerate(dec):
        f = fid(op['field'])
        g = op['guard']
        r = '(fun _ => rfl) (fun _ => rfl) (fun _ _ => rfl) (fun _ _ => rfl) (fun _ _ => rfl)'
        get = f'(get := fun (t : {n}) => t.{f}) (set := fun (t : {n}) x => {{ t with {f} := x }})'
        up = 'h' + '.1' * (len(dec) - 1 - i) + ('.2' if i else '')
        if op['kind'] == 'get':
            p = f".field {get} .{LOW[op['what']]} {r}"
            if op['what'] in FITS:
                proj.append((f, up))
        else:
            p = f".structs {get} ({op['elem']}.rewrites version) (fun _ => rfl) {r}"
            proj.append((f, up))
        if g:
            p = f'.onlyIf (g := {cond(g)}) ({p}) (fun _ => rfl)'
        steps.append(f'({p} : RewriteStep _ ({n}.first {i}) ({n}.first {i + 1}) _ _)')
    o = [f'theorem {n}.rewrites (version : Int16) : Rewrites ({n}.decode version {{}}) ({n}.wire version) ({n}.Fits version) :=']
    chain_ = '\n    |>.andThen '.join(steps) if steps else f'(.nop (fun _ => rfl) : RewriteStep _ ({n}.first 0) ({n}.first 0) _ _)'
    fit = '⟨' + ', '.join(x for _, x in proj) + '⟩' if proj else 'trivial'
    o.append(f"  ({chain_}).whole {{}} rfl (fun _ => rfl) (fun _ {'h' if proj else '_'} => {fit})")
    o.append('')
    return '\n'.join(o)


def main():
    structs, order = parse()
    used = {t[2:] for s in structs.values() for _, t, _ in s.fields if t[2:] in structs}
    groups = {}
    cur = None
    for n in order:
        if n not in used:
            cur = re.sub(r'(Request|Response)$', '', n)
            if n in ('RequestHeader', 'ResponseHeader'):
                cur = 'Header'
        groups.setdefault(cur, []).append(n)
    for d in ('Model', 'Spec', 'Proof', 'Gate', 'Alloc', 'Reuse', 'Work', 'Kept', 'Rewrite'):
        os.makedirs(os.path.join(ROOT, d), exist_ok=True)
        for f in os.listdir(os.path.join(ROOT, d)):
            os.remove(os.path.join(ROOT, d, f))
    known, knownW = {}, {}
    for g, names in groups.items():
        done = []

        def visit(n):
            if n in done:
                return
            for _, t, _ in structs[n].fields:
                if t[2:] in structs:
                    assert t[2:] in names, (n, t)
                    visit(t[2:])
            done.append(n)
        for n in names:
            visit(n)
        with open(os.path.join(ROOT, 'Model', g + '.lean'), 'w') as fh:
            fh.write(f'import Verif.Message.Steps\n/-!\nGenerated by tools/gen_messages.py from {SRC}: model of the {g} messages.\n-/\nnamespace Kafka.Msg\n\n')
            fh.write('\n'.join(model(structs[n]) for n in done))
            fh.write('\nend Kafka.Msg\n')
        with open(os.path.join(ROOT, 'Spec', g + '.lean'), 'w') as fh:
            fh.write(f'import Verif.Message.Layout\nimport Verif.Gen.Model.{g}\n/-!\nGenerated by tools/gen_messages.py: specification of the {g} messages.\n-/\nnamespace Kafka.Msg\n\n')
            fh.write('\n'.join(spec(structs[n]) for n in done))
            fh.write('\nend Kafka.Msg\n')
        with open(os.path.join(ROOT, 'Proof', g + '.lean'), 'w') as fh:
            fh.write(f'import Verif.Message.StepLemmas\nimport Verif.Gen.Spec.{g}\n/-!\nGenerated by tools/gen_messages.py: laws of the {g} messages.\n-/\nnamespace Kafka.Msg\n\n')
            fh.write('\n'.join(proof(structs[n]) for n in done))
            fh.write('\nend Kafka.Msg\n')
        with open(os.path.join(ROOT, 'Alloc', g + '.lean'), 'w') as fh:
            fh.write(f'import Verif.Message.AllocLemmas\nimport Verif.Gen.Model.{g}\n/-!\nGenerated by tools/gen_messages.py: memory asked for by decoding the {g} messages.\n-/\nnamespace Kafka.Msg\n\n')
            fh.write('\n'.join(alloc(structs[n], known) for n in done))
            fh.write('\nend Kafka.Msg\n')
        with open(os.path.join(ROOT, 'Work', g + '.lean'), 'w') as fh:
            fh.write(f'import Verif.Message.Work\nimport Verif.Gen.Model.{g}\n/-!\nGenerated by tools/gen_messages.py: steps taken by decoding the {g} messages.\n-/\nnamespace Kafka.Msg\n\n')
            fh.write('\n'.join(work(structs[n], knownW) for n in done))
            fh.write(f'\n/-- The structures of the {g} messages. -/\n')
            fh.write(f'def work{g} : List (Σ M : MsgType, Int16 → M.T → ADec M.T) :=\n  [' + ',\n   '.join(f'⟨{n}.type, {n}.decodeW⟩' for n in names) + ']\n')
            fh.write(f'theorem work{g}_erases : ∀ p ∈ work{g}, ∀ v t, Erases (p.2 v t) (p.1.decode v t) := by\n  unfold work{g}\n  simp only [List.forall_mem_cons]\n')
            fh.write('  exact ⟨' + ', '.join(f'{n}.erasesW' for n in names) + ', fun _ h => absurd h (by simp)⟩\n')
            fh.write(f'theorem work{g}_spends : ∀ p ∈ work{g}, ∀ v t, Spends (p.2 v t) 0 1 := by\n  unfold work{g}\n  simp only [List.forall_mem_cons]\n')
            fh.write('  exact ⟨' + ', '.join(f'{n}.spends0' for n in names) + ', fun _ h => absurd h (by simp)⟩\n')
            fh.write('\nend Kafka.Msg\n')
        with open(os.path.join(ROOT, 'Reuse', g + '.lean'), 'w') as fh:
            fh.write(f'import Verif.Message.Reuse\nimport Verif.Gen.Spec.{g}\n/-!\nGenerated by tools/gen_messages.py: decoding into {g} messages used before.\n-/\nset_option linter.unusedSimpArgs false\nset_option linter.unusedVariables false\nnamespace Kafka.Msg\n\n')
            fh.write('\n'.join(reuse(structs[n]) for n in done))
            fh.write(f'\n/-- The structures of the {g} messages. -/\n')
            fh.write(f'def reuse{g} : List (Σ (M : MsgType) (_ : Layout M), Reuse M) :=\n  [' + ',\n   '.join(f'⟨{n}.type, {n}.layout, {n}.reuse⟩' for n in names) + ']\n')
            fh.write(f'theorem reuse{g}_holds : ∀ p ∈ reuse{g}, p.2.2.Holds p.2.1 := by\n  unfold reuse{g}\n  simp only [List.forall_mem_cons]\n')
            fh.write('  exact ⟨' + ', '.join(f'{n}.reusable' for n in names) + ', fun _ h => absurd h (by simp)⟩\n')
            fh.write('\nend Kafka.Msg\n')
        with open(os.path.join(ROOT, 'Kept', g + '.lean'), 'w') as fh:
            fh.write(f'import Verif.Message.KeptLemmas\nimport Verif.Gen.Proof.{g}\n/-!\nGenerated by tools/gen_messages.py: what is in the {g} messages after an error.\n-/\nset_option linter.unusedVariables false\nnamespace Kafka.Msg\n\n')
            fh.write('\n'.join(kept(structs[n]) for n in done))
            fh.write(f'\n/-- The structures of the {g} messages. -/\n')
            fh.write(f'def kept{g} : List (Σ (M : MsgType) (_ : Layout M), KeptMsg M) :=\n  [' + ',\n   '.join(f'⟨{n}.type, {n}.layout, {n}.keeps⟩' for n in names) + ']\n')
            fh.write(f'theorem kept{g}_holds : ∀ p ∈ kept{g}, p.2.2.Holds p.2.1 := by\n  unfold kept{g}\n  simp only [List.forall_mem_cons]\n')
            fh.write('  exact ⟨' + ', '.join(f'{n}.keeps_holds' for n in names) + ', fun _ h => absurd h (by simp)⟩\n')
            fh.write('\nend Kafka.Msg\n')
        with open(os.path.join(ROOT, 'Rewrite', g + '.lean'), 'w') as fh:
            fh.write(f'import Verif.Message.Rewrites\nimport Verif.Gen.Kept.{g}\nimport Verif.Gen.All\n/-!\nGenerated by tools/gen_messages.py: encoding {g} messages that were decoded.\n-/\nnamespace Kafka.Msg\n\n')
            fh.write('\n'.join(rewrite(structs[n]) for n in done))
            fh.write(f'\ntheorem rewrites{g} : ∀ p ∈ types{g}, ∀ v, Rewrites (p.1.decode v p.1.zero) (p.2.wire v) (p.2.Fits v) := by\n  unfold types{g}\n  simp only [List.forall_mem_cons]\n')
            fh.write('  exact ⟨' + ', '.join(f'{n}.rewrites' for n in names) + ', fun _ h => absurd h (by simp)⟩\n')
            fh.write('\nend Kafka.Msg\n')
    allg = []
    for g, names in groups.items():
        texts, gn = [], []
        for n in names:
            t, l = gates(structs[n])
            if l:
                texts.append(t)
                gn += l
        if not gn:
            continue
        allg.append((g, len(gn)))
        with open(os.path.join(ROOT, 'Gate', g + '.lean'), 'w') as fh:
            fh.write(f'import Verif.Message.Gate\nimport Verif.Gen.Spec.{g}\n/-!\nGenerated by tools/gen_messages.py: the version-dependent fields of the {g} messages.\n-/\nset_option linter.unusedSimpArgs false\nnamespace Kafka.Msg\n\n')
            fh.write('\n'.join(texts))
            fh.write(f'\n/-- The version-dependent fields of the {g} messages. -/\n')
            fh.write(f'def gates{g} : List Gate :=\n  [' + ',\n   '.join(gn) + ']\n\n')
            fh.write(f'theorem gates{g}_hold : ∀ g ∈ gates{g}, g.Holds := by\n  unfold gates{g}\n  simp only [List.forall_mem_cons]\n')
            fh.write('  exact ⟨' + ',\n    '.join(f'{x}_holds' for x in gn) + ',\n    fun _ h => absurd h (by simp)⟩\n')
            fh.write('\nend Kafka.Msg\n')
    with open(os.path.join(ROOT, 'Gates.lean'), 'w') as fh:
        for g, _ in allg:
            fh.write(f'import Verif.Gen.Gate.{g}\n')
        fh.write('/-!\nGenerated by tools/gen_messages.py: all version-dependent fields.\n-/\nnamespace Kafka.Msg\n\n')
        fh.write('/-- The version-dependent fields by API. -/\ndef gatesByApi : List (List Gate) :=\n  [' + ', '.join('gates' + g for g, _ in allg) + ']\n\n')
        fh.write(f'/-- The version-dependent fields of all message types. -/\ndef gates : List Gate := gatesByApi.flatten\n\n')
        fh.write(f'set_option maxRecDepth 4000 in\ntheorem gates_length : gates.length = {sum(k for _, k in allg)} := rfl\n\n')
        fh.write('theorem gates_hold : ∀ g ∈ gates, g.Holds := by\n  suffices h : ∀ l ∈ gatesByApi, ∀ g ∈ l, g.Holds by\n    intro g hg\n    obtain ⟨l, hl, hg⟩ := List.mem_flatten.1 hg\n    exact h l hl g hg\n  unfold gatesByApi\n  simp only [List.forall_mem_cons]\n')
        fh.write('  exact ⟨' + ',\n    '.join(f'gates{g}_hold' for g, _ in allg) + ',\n    fun _ h => absurd h (by simp)⟩\n')
        fh.write('\nend Kafka.Msg\n')
    with open(os.path.join(ROOT, 'All.lean'), 'w') as fh:
        for g in groups:
            fh.write(f'import Verif.Gen.Proof.{g}\n')
        fh.write('/-!\nGenerated by tools/gen_messages.py: the list of all message types.\n-/\nnamespace Kafka.Msg\n\n')
        for g, names in groups.items():
            fh.write(f'/-- The structures of the {g} messages. -/\n')
            fh.write(f'def types{g} : List (Σ M : MsgType, Layout M) :=\n  [' + ',\n   '.join(f'⟨{n}.type, {n}.layout⟩' for n in names) + ']\n')
            fh.write(f'theorem types{g}_lawful : ∀ p ∈ types{g}, Lawful p.1 p.2 := by\n  unfold types{g}\n  simp only [List.forall_mem_cons]\n')
            fh.write('  exact ⟨' + ', '.join(f'{n}.lawful' for n in names) + ', fun _ h => absurd h (by simp)⟩\n\n')
        fh.write('/-- All message types by API. -/\ndef byApi : List (List (Σ M : MsgType, Layout M)) :=\n  [' + ', '.join('types' + g for g in groups) + ']\n\n')
        fh.write(f'/-- The {len(order)} structures of {SRC}, in the order of the file. -/\n')
        fh.write('def all : List (Σ M : MsgType, Layout M) := byApi.flatten\n\n')
        fh.write(f'set_option maxRecDepth 4000 in\ntheorem all_length : all.length = {len(order)} := rfl\n\n')
        fh.write('theorem all_lawful : ∀ p ∈ all, Lawful p.1 p.2 := by\n  suffices h : ∀ l ∈ byApi, ∀ p ∈ l, Lawful p.1 p.2 by\n    intro p hp\n    obtain ⟨l, hl, hp⟩ := List.mem_flatten.1 hp\n    exact h l hl p hp\n  unfold byApi\n  simp only [List.forall_mem_cons]\n')
        fh.write('  exact ⟨' + ',\n    '.join(f'types{g}_lawful' for g in groups) + ',\n    fun _ h => absurd h (by simp)⟩\n')
        fh.write('\nend Kafka.Msg\n')
    with open(os.path.join(ROOT, 'Reuses.lean'), 'w') as fh:
        for g in groups:
            fh.write(f'import Verif.Gen.Reuse.{g}\n')
        fh.write('import Verif.Gen.All\n/-!\nGenerated by tools/gen_messages.py: decoding into messages used before, all types.\n-/\nnamespace Kafka.Msg\n\n')
        fh.write('/-- By API. -/\ndef reusesByApi : List (List (Σ (M : MsgType) (_ : Layout M), Reuse M)) :=\n  [' + ', '.join('reuse' + g for g in groups) + ']\n\n')
        fh.write('/-- All message types. -/\ndef reuses : List (Σ (M : MsgType) (_ : Layout M), Reuse M) := reusesByApi.flatten\n\n')
        fh.write('set_option maxRecDepth 4000 in\n/-- They are the ones of `all`. -/\ntheorem reuses_all : reuses.map (fun p => (⟨p.1, p.2.1⟩ : Σ M : MsgType, Layout M)) = all := rfl\n\n')
        fh.write('theorem reuses_hold : ∀ p ∈ reuses, p.2.2.Holds p.2.1 := by\n  suffices h : ∀ l ∈ reusesByApi, ∀ p ∈ l, p.2.2.Holds p.2.1 by\n    intro p hp\n    obtain ⟨l, hl, hp⟩ := List.mem_flatten.1 hp\n    exact h l hl p hp\n  unfold reusesByApi\n  simp only [List.forall_mem_cons]\n')
        fh.write('  exact ⟨' + ',\n    '.join(f'reuse{g}_holds' for g in groups) + ',\n    fun _ h => absurd h (by simp)⟩\n')
        fh.write('\nend Kafka.Msg\n')
    with open(os.path.join(ROOT, 'Kepts.lean'), 'w') as fh:
        for g in groups:
            fh.write(f'import Verif.Gen.Kept.{g}\n')
        fh.write('import Verif.Gen.All\n/-!\nGenerated by tools/gen_messages.py: what is in a message after an error, all types.\n-/\nnamespace Kafka.Msg\n\n')
        fh.write('/-- By API. -/\ndef keptsByApi : List (List (Σ (M : MsgType) (_ : Layout M), KeptMsg M)) :=\n  [' + ', '.join('kept' + g for g in groups) + ']\n\n')
        fh.write('/-- All message types. -/\ndef kepts : List (Σ (M : MsgType) (_ : Layout M), KeptMsg M) := keptsByApi.flatten\n\n')
        fh.write('set_option maxRecDepth 4000 in\n/-- They are the ones of `all`. -/\ntheorem kepts_all : kepts.map (fun p => (⟨p.1, p.2.1⟩ : Σ M : MsgType, Layout M)) = all := rfl\n\n')
        fh.write('theorem kepts_hold : ∀ p ∈ kepts, p.2.2.Holds p.2.1 := by\n  suffices h : ∀ l ∈ keptsByApi, ∀ p ∈ l, p.2.2.Holds p.2.1 by\n    intro p hp\n    obtain ⟨l, hl, hp⟩ := List.mem_flatten.1 hp\n    exact h l hl p hp\n  unfold keptsByApi\n  simp only [List.forall_mem_cons]\n')
        fh.write('  exact ⟨' + ',\n    '.join(f'kept{g}_holds' for g in groups) + ',\n    fun _ h => absurd h (by simp)⟩\n')
        fh.write('\nend Kafka.Msg\n')
    with open(os.path.join(ROOT, 'Rewrites.lean'), 'w') as fh:
        for g in groups:
            fh.write(f'import Verif.Gen.Rewrite.{g}\n')
        fh.write('/-!\nGenerated by tools/gen_messages.py: encoding what was decoded, all types.\n-/\nnamespace Kafka.Msg\n\n')
        fh.write('theorem all_rewrites : ∀ p ∈ all, ∀ v, Rewrites (p.1.decode v p.1.zero) (p.2.wire v) (p.2.Fits v) := by\n  suffices h : ∀ l ∈ byApi, ∀ p ∈ l, ∀ v, Rewrites (p.1.decode v p.1.zero) (p.2.wire v) (p.2.Fits v) by\n    intro p hp\n    obtain ⟨l, hl, hp⟩ := List.mem_flatten.1 hp\n    exact h l hl p hp\n  unfold byApi\n  simp only [List.forall_mem_cons]\n')
        fh.write('  exact ⟨' + ',\n    '.join(f'rewrites{g}' for g in groups) + ',\n    fun _ h => absurd h (by simp)⟩\n')
        fh.write('\nend Kafka.Msg\n')
    with open(os.path.join(ROOT, 'Works.lean'), 'w') as fh:
        for g in groups:
            fh.write(f'import Verif.Gen.Work.{g}\n')
        fh.write('import Verif.Gen.All\n/-!\nGenerated by tools/gen_messages.py: steps taken by decoding, all types.\n-/\nnamespace Kafka.Msg\n\n')
        fh.write('/-- By API. -/\ndef worksByApi : List (List (Σ M : MsgType, Int16 → M.T → ADec M.T)) :=\n  [' + ', '.join('work' + g for g in groups) + ']\n\n')
        fh.write('/-- All message types. -/\ndef works : List (Σ M : MsgType, Int16 → M.T → ADec M.T) := worksByApi.flatten\n\n')
        fh.write('set_option maxRecDepth 4000 in\n/-- They are the ones of `all`. -/\ntheorem works_all : works.map (·.1) = all.map (·.1) := rfl\n\n')
        for what, st in (('erases', '∀ v t, Erases (p.2 v t) (p.1.decode v t)'), ('spends', '∀ v t, Spends (p.2 v t) 0 1')):
            fh.write(f'theorem works_{what} : ∀ p ∈ works, {st} := by\n  suffices h : ∀ l ∈ worksByApi, ∀ p ∈ l, {st} by\n    intro p hp\n    obtain ⟨l, hl, hp⟩ := List.mem_flatten.1 hp\n    exact h l hl p hp\n  unfold worksByApi\n  simp only [List.forall_mem_cons]\n')
            fh.write('  exact ⟨' + ',\n    '.join(f'work{g}_{what}' for g in groups) + ',\n    fun _ h => absurd h (by simp)⟩\n\n')
        fh.write('end Kafka.Msg\n')
    print(len(groups), 'groups')


if __name__ == "__main__":
    main()
