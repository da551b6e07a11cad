"""Write MANIFEST.json: one claim per property of properties.jsonl."""
import json, os
root = os.path.join(os.path.dirname(__file__), '..')
C = {}
def claim(p, status, theorems, note):
    C[p] = dict(property=p, status=status, theorems=['Reiconv.' + t for t in theorems], note=note)

TODO = 'not proved yet'
claim('C01', 'partial', ['C01_convert_safe_partial', 'C01_registered', 'C01_gb18030_2005_overflow', 'C01_gb18030_2005_exact', 'C01_gb18030_2005_calls',
      'C01_gb18030_2005_enough', 'C01_gb18030_2005_convert'],
      'every pair of registered encodings (197 targets, 198 sources: targets_complete, sources_complete); false for the target GB18030:2005, whose encoder overflows the buffer: the witness is a theorem')
claim('C02', 'proved', ['C02_accounting'], 'for every registered pair of encodings')
claim('C03', 'partial', ['C03_exact', 'C03_flush_safe_partial', 'C03_flush_overflow', 'C03_flush_overflow_all', 'C03_registered_partial', 'C03_registered_violation'],
      'C03_exact: holds for every registered source but CP1255, CP1258, TCVN, EUC-JISX0213, Shift_JISX0213 and ISO-2022-JP-3, and is false for these six')
claim('C04', 'proved', ['C04_return_contract'], 'for every registered pair of encodings')
claim('C05', 'proved', ['C05_C06_chunking', 'C05_C06_prefix', 'C05_single_call'], 'for every registered pair of encodings')
claim('C06', 'proved', ['C05_C06_chunking', 'C05_C06_prefix'], 'for every registered pair of encodings')
claim('C07', 'proved', ['C07_progress', 'C07_retry_terminates'], 'for every registered pair of encodings')
claim('C08', 'partial', ['C08_result_size_partial', 'C08_exact', 'C08_exact_buffer_too_small', 'C08_tag_too_small', 'C08_jp2_tag_too_small'],
      'the full property is false of the code: witnesses are theorems; C08_exact: for every registered target and either setting of the flag, whether the size asked for is enough')
claim('C09', 'partial', ['C09_exact', 'C09_convert_whole_partial', 'C09_wrong_text'],
      'C09_exact: holds for every registered source but UTF-16, UTF-32, UCS-2, UCS-4, and is false for these four')
claim('C10', 'partial', ['C10_rest_untouched_partial', 'C10_exact', 'C10_rest_overwritten'],
      'C10_exact: holds for every registered target but UTF-16 and UTF-7, and is false for these two')
claim('C11', 'partial', ['C11_exact', 'C11_violation', 'C11_too_small_partial', 'C03_flush_overflow'],
      'C11_exact: holds for every registered source but the six of C03, and is false for these six')
claim('C12', 'proved', ['C12_strict_rejects_invalid'], 'for every registered pair of encodings')
claim('C13', 'partial', ['C13_discard_partial', 'C13_exact', 'C13_whole', 'C08_exact_buffer_too_small'],
      'reiconv_convert can fail with E2BIG: C13_exact says for which registered targets')
claim('C14', 'proved', ['C14_discard_agrees'], 'for every registered pair of encodings')
claim('C15', 'proved', ['C15_return_counts'], 'for every registered pair of encodings')
claim('C16', 'partial', ['C16_reset_like_new_partial', 'C16_exact', 'C16_reset_keeps_byte_order'],
      'C16_exact: holds for every registered source but UTF-16, UTF-32, UCS-2, UCS-4, and is false for these four')
claim('C17', 'partial', ['C17_no_trace_partial', 'C17_sources', 'C17_targets', 'C17_failed_convert_leaves_state'],
      'false after a failed call; C17_sources and C17_targets: exactly the registered encodings that keep a state are affected')
claim('C18', 'partial', ['C18_truncated_partial', 'C18_exact', 'C18_whole', 'C18_static_accepts_truncated'],
      'false for reiconv_convert_static_size with every registered source that has sequences of several bytes (C18_exact); nothing to reject for the others (C18_whole)')
exec(open(os.path.join(os.path.dirname(__file__), 'manifest_more.py')).read())
ids = [json.loads(l)['id'] for l in open(os.path.join(root, 'properties.jsonl'))]
out = []
for i in ids:
    out.append(C.get(i) or dict(property=i, status='partial', theorems=[], note=TODO))
with open(os.path.join(root, 'MANIFEST.json'), 'w') as f:
    f.write('{"claims": [\n' + ',\n'.join(json.dumps(c) for c in out) + '\n]}\n')
