#!/usr/bin/env python3
"""Write seeded/LOG.jsonl (one line per seeded bug) and seeded/mutations.json from the campaign files in /tmp/mut.

m*.json: the edits; o*.jsonl: what the runner (tools/seed.py) found."""
import json, os, sys
D = '/tmp/mut'
TIGHT = {
    'u_shadow': ['C50_methods (added: only the last attribute can hide a conversion method)'],
    'u_firstkey': ['C101_clash (added: the text for keywords that clash)'],
    'h_hex_sign': ['C45_inverse (added: the text determines the number, sign included)'],
    'h_knots_val': ['C46_accuracy (added: the factors are the physical ones)'],
    'v_val_la': ['C07_field (added: exact width and hemisphere of a generated coordinate)'],
    'v_nom_lnd': ['C69_default (added: the value every omitted field gets)'],
    'g_props': ['C50_not_shadowed (added: no attribute of any definition hides a getter)'],
    'd_posmode': ['C82_mode (added: the name of each mode)'],
    'w_escape': ['C87_text (added: the JSON of any text stands for the text)'],
    'w_surr': ['C87_text (added: the JSON of any text stands for the text)'],
    'w_nan': ['C87_words (added: what is written for nan and the infinities)'],
    'x_chunk': ['C34_flags (added: the flags are independent bits)'],
    'e_repr': ['C100_bytes (added: bytes are shown as a literal that denotes them)'],
    'y_gpxtrail': ['C84_well_formed (added: a finished file is well-formed XML)'],
    'y_numbool': ['C07_bool, C44_bool (added); C07_invalid, C44_invalid, C09_magnitude (restated without the helper)'],
    'y_reads': ['C25_session_calls (added: outcomes and reported errors of successive calls, in order)'],
    'y_plen': ['C16_layout, C16_group (the size of a group is now specified independently of the model)'],
    'y_tostrnone': ['C52_values, C52_text_field (added: the text of every kind of value)'],
    'y_eqzero': ['the theorems that depend on the choice of definitions by keywords (C47, C51, C05): GivenZero restated without the helper'],
    'y_webcfg': ['C87_settings (added: only sentences with the right checksum are shown)'],
    'ap_prefix': ['C102_first_item (added: the first item extends the id)'],
    'ap_qtmsn': ['C102_chosen (added: which layout is chosen)'],
    'ap_brobj': ['C102_bracketed_texts (added: payloads of PSSNSNC)'],
    'v_nom_qs': ['C69_default (added: the value every omitted field gets)'],
}
RELABEL = {'s_decomp_order': 'C35', 's_decomp_fail': 'C35', 'g_uart': 'C47/C51', 'g_sn': 'C47/C51',
           'g_gen_nokw': 'C05/C09', 'g_gen_append': 'C05/C09'}
SKIP = {'s_recv_empty', 's_recv_empty_2', 'g_acknak', 'g_uart_kw', 'g_msgrate', 'g_pps', 'g_sat', 'y_tgroup', 'y_trest', 'y_reserved', 'x_jsonhex', 't_alc_rep', 't_alc_drop', 't_hpd', 't_trd', 't_rex_drop', 'y_deg'}  # redone as *_2
NOTE = {'u_truediv': 'Equivalent program: every quotient is converted with int(), which raises the same OverflowError for infinity.',
        'u_nfile': 'Equivalent program: the error handler is never called (C95_file), so the log it counts is empty.',
        'u_sende': 'Equivalent program: a page has been decoded from UTF-8 and the JSON text is ASCII, so what is sent can always be encoded (C97_page, C97_gps).',
        'r_quote': 'The claim is not broken: the literal is quoted differently from Python but still denotes the same string.',
        'g_stm_kw': 'Equivalent program: neither of the two names has a definition, so both are refused with the same error.',
        'x_esc': 'The claim is not broken: an unescaped DEL in the literal denotes the same string. (C100_bytes, added since, excludes it in exception texts.)',
        'x_shadow': 'Equivalent program: both exceptions become NMEATypeError; the texts differ only for user definitions that shadow a method.',
        'l_skip': 'Equivalent program: printing a parsed message never fails (C52_total), so the edited branch is never taken.',
        'd_fmi': 'The claim is not broken: the keys stay distinct bits of the flag word.'}
try:
    from seedextra import TIGHT as T2, RELABEL as R2, SKIP as S2
    TIGHT.update(T2); RELABEL.update(R2); SKIP |= S2
except ImportError:
    pass
log, muts = [], []
for n in range(1, 100):
    mp, op = f'{D}/m{n}.json', f'{D}/o{n}.jsonl'
    if not os.path.exists(mp) or not os.path.exists(op):
        continue
    res = {}
    for l in open(op):
        d = json.loads(l)
        res[d['id']] = d
    for m in json.load(open(mp)):
        i = m['id']
        if i in SKIP or i not in res:
            continue
        o = res[i]
        if o.get('error'):
            print('error in', i, o['error'][:200], file=sys.stderr)
            continue
        muts.append(m)
        direct = [b for b in o['broken'] if ':' not in b]
        log.append({'id': i, 'definition': m['defn'], 'file': 'lean/Verif/' + m['edits'][0]['file'],
                    'edit': [{'from': e['old'], 'to': e['new']} for e in m['edits']],
                    'claim': RELABEL.get(i, m['claim']), 'failed': o['failed'],
                    'proofs_that_broke': direct, 'tightened': TIGHT.get(i, []),
                    'survived': not o['failed'], **({'note': NOTE[i]} if i in NOTE else {})})
os.makedirs('/verif/seeded', exist_ok=True)
with open('/verif/seeded/LOG.jsonl', 'w') as f:
    for x in log:
        f.write(json.dumps(x, ensure_ascii=False) + '\n')
json.dump(muts, open('/verif/seeded/mutations.json', 'w'), indent=1, ensure_ascii=False)
print(len(log), 'entries;', [x['id'] for x in log if x['survived']], 'survived;',
      [x['id'] for x in log if x['survived'] and not x['tightened'] and 'note' not in x], 'unexplained')
