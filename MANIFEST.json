{
 "claims": [
  {
   "property": "C01",
   "status": "proved",
   "theorems": [
    "Ion.C01_int_roundtrip"
   ],
   "note": "All 32-bit values, widths 1..8, flag bits and suffixes."
  },
  {
   "property": "C02",
   "status": "proved",
   "theorems": [
    "Ion.C02_int_decode_exact",
    "Ion.C02_int_decode_error"
   ],
   "note": "Acceptance is characterised exactly against RFC 7541 5.1 (at most five continuation octets)."
  },
  {
   "property": "C03",
   "status": "proved",
   "theorems": [
    "Ion.C03_int_encode_rejects",
    "Ion.C03_int_encode_canonical"
   ],
   "note": "Canonical = shortest representation."
  },
  {
   "property": "C04",
   "status": "proved",
   "theorems": [
    "Ion.C04_table_is_canonical",
    "Ion.C04_codes_fit",
    "Ion.C04_prefix_free",
    "Ion.C04_prefix_free_eos",
    "Ion.C04_kraft",
    "Ion.C04_tree_builds"
   ],
   "note": "The code table is compared entry by entry with a canonical code generated from the RFC lengths."
  },
  {
   "property": "C05",
   "status": "proved",
   "theorems": [
    "Ion.C05_huffman_roundtrip"
   ],
   "note": "For every string whose bytes index the table within range (see C21)."
  },
  {
   "property": "C06",
   "status": "partial",
   "theorems": [
    "Ion.C06_not_strict",
    "Ion.C06_accepted_language_partial"
   ],
   "note": "Strict rejection is refuted with witnesses; the accepted language is characterised exactly."
  },
  {
   "property": "C07",
   "status": "proved",
   "theorems": [
    "Ion.C07_huffman_total_bounded"
   ],
   "note": "Total, no undefined behaviour, output at most 8/5 of the input."
  },
  {
   "property": "C08",
   "status": "proved",
   "theorems": [
    "Ion.C08_string_roundtrip"
   ],
   "note": "All strings up to 4096 bytes that the encoder can write (see C21), all suffixes."
  },
  {
   "property": "C09",
   "status": "proved",
   "theorems": [
    "Ion.C09_string_limit"
   ],
   "note": "Over all histories of accepted and rejected blocks."
  },
  {
   "property": "C10",
   "status": "proved",
   "theorems": [
    "Ion.C10_accounting"
   ],
   "note": ""
  },
  {
   "property": "C11",
   "status": "proved",
   "theorems": [
    "Ion.C11_fifo"
   ],
   "note": "Against an independent longest-prefix specification."
  },
  {
   "property": "C12",
   "status": "proved",
   "theorems": [
    "Ion.C12_find",
    "Ion.C12_find_name"
   ],
   "note": ""
  },
  {
   "property": "C13",
   "status": "proved",
   "theorems": [
    "Ion.C13_decode_sound"
   ],
   "note": "Up to the Huffman padding leniency of C06, as the statement says."
  },
  {
   "property": "C14",
   "status": "proved",
   "theorems": [
    "Ion.C14_decode_complete"
   ],
   "note": ""
  },
  {
   "property": "C15",
   "status": "proved",
   "theorems": [
    "Ion.C15_valid_indices",
    "Ion.C15_indexed_rejected",
    "Ion.C15_literal_rejected",
    "Ion.C17_ub_exact"
   ],
   "note": "C17_ub_exact shows that the only undefined behaviour is the dereference of a failed integer, so tables are never read out of range."
  },
  {
   "property": "C16",
   "status": "proved",
   "theorems": [
    "Ion.C16_resource_bound"
   ],
   "note": ""
  },
  {
   "property": "C17",
   "status": "partial",
   "theorems": [
    "Ion.C17_ub_exists",
    "Ion.C17_ub_exact",
    "Ion.C17_no_ub_partial"
   ],
   "note": "False: one octet 0xff suffices. Proved exactly when undefined behaviour occurs, and its absence otherwise."
  },
  {
   "property": "C18",
   "status": "proved",
   "theorems": [
    "Ion.C18_smaller_peer"
   ],
   "note": ""
  },
  {
   "property": "C19",
   "status": "partial",
   "theorems": [
    "Ion.C19_refuted_name",
    "Ion.C19_refuted_full",
    "Ion.C19_block_partial",
    "Ion.C19_connection_partial"
   ],
   "note": "False in general: indices are truncated to one octet. Proved for blocks whose indices fit, and for whole connections with at most 65 different fields outside the static table."
  },
  {
   "property": "C20",
   "status": "partial",
   "theorems": [
    "Ion.C20_refuted",
    "Ion.C20_client_limit_partial"
   ],
   "note": "False in general. Proved when the fields sent that are not in the static table are at most 65 and fit in the client table."
  },
  {
   "property": "C21",
   "status": "partial",
   "theorems": [
    "Ion.C21_ub_exists",
    "Ion.C21_encode_defined_partial",
    "Ion.C21_exact"
   ],
   "note": "False with a signed char. Proved for ASCII strings or an unsigned char. Exactly when it fails is proved."
  },
  {
   "property": "C22",
   "status": "proved",
   "theorems": [
    "Ion.C22_header_roundtrip",
    "Ion.C22_header_reserialize",
    "Ion.C22_header_layout"
   ],
   "note": ""
  },
  {
   "property": "C23",
   "status": "proved",
   "theorems": [
    "Ion.C23_setting_roundtrip",
    "Ion.C23_goaway_roundtrip",
    "Ion.C23_window_update_roundtrip",
    "Ion.C23_parse_layout",
    "Ion.C23_read_settings",
    "Ion.C23_settings_unique"
   ],
   "note": ""
  },
  {
   "property": "C24",
   "status": "partial",
   "theorems": [
    "Ion.C24_out_of_bounds",
    "Ion.C24_in_bounds_partial"
   ],
   "note": "False: PRIORITY with fewer than 5 octets, WINDOW_UPDATE with fewer than 4. Exactly these reads are out of bounds."
  },
  {
   "property": "C25",
   "status": "proved",
   "theorems": [
    "Ion.Sim.C25_segmentation"
   ],
   "note": ""
  },
  {
   "property": "C26",
   "status": "proved",
   "theorems": [
    "Ion.Sim.C26_frames",
    "Ion.Sim.C26_frames_complete"
   ],
   "note": ""
  },
  {
   "property": "C27",
   "status": "proved",
   "theorems": [
    "Ion.Sim.C27_bounded",
    "Ion.Sim.C27_no_stall"
   ],
   "note": ""
  },
  {
   "property": "C28",
   "status": "proved",
   "theorems": [
    "Ion.Sim.C28_oversized"
   ],
   "note": ""
  },
  {
   "property": "C29",
   "status": "proved",
   "theorems": [
    "Ion.Sim.C29_preface_gate"
   ],
   "note": ""
  },
  {
   "property": "C30",
   "status": "proved",
   "theorems": [
    "Ion.Sim.C30_settings_first"
   ],
   "note": ""
  },
  {
   "property": "C31",
   "status": "proved",
   "theorems": [
    "Ion.Sim.C31_replies"
   ],
   "note": ""
  },
  {
   "property": "C32",
   "status": "proved",
   "theorems": [
    "Ion.Sim.C32_body_frames"
   ],
   "note": ""
  },
  {
   "property": "C33",
   "status": "proved",
   "theorems": [
    "Ion.Sim.C33_settings_ack"
   ],
   "note": ""
  },
  {
   "property": "C34",
   "status": "proved",
   "theorems": [
    "Ion.Sim.C34_no_effect",
    "Ion.Sim.C34_inert"
   ],
   "note": ""
  },
  {
   "property": "C35",
   "status": "partial",
   "theorems": [
    "Ion.Sim.C35_accepted",
    "Ion.Sim.C35_tls",
    "Ion.Sim.C35_tcp_refuted",
    "Ion.Sim.C35_tcp_partial"
   ],
   "note": "Proved for TLS. False over TCP: a partial write(2) is reported as an error and the whole buffer is written again. Proved over TCP when the kernel takes all octets of a write or none."
  },
  {
   "property": "C36",
   "status": "proved",
   "theorems": [
    "Ion.Sim.C36_retry"
   ],
   "note": ""
  },
  {
   "property": "C37",
   "status": "proved",
   "theorems": [
    "Ion.Sim.C37_bounded_output"
   ],
   "note": ""
  },
  {
   "property": "C38",
   "status": "proved",
   "theorems": [
    "Ion.Sim.C38_ended_events",
    "Ion.Sim.C38_ended"
   ],
   "note": ""
  },
  {
   "property": "C39",
   "status": "partial",
   "theorems": [
    "Ion.Sim.C39_refuted",
    "Ion.Server.C39_server",
    "Ion.Sim.C39_unsent",
    "Ion.Sim.C39_one_more_call_partial"
   ],
   "note": "False: process() reports the error and the server drops the connection, so the GOAWAY is never handed to the transport. Proved: one more call would have sent it."
  },
  {
   "property": "C40",
   "status": "partial",
   "theorems": [
    "Ion.Sim.C40_refuted",
    "Ion.Sim.C40_nothing_stranded_partial"
   ],
   "note": "False: the server SETTINGS stay buffered until the first frame arrives. Proved once a frame has been acted on."
  },
  {
   "property": "C74",
   "status": "proved",
   "theorems": [
    "Ion.Sim.C74_drained"
   ],
   "note": ""
  },
  {
   "property": "C41",
   "status": "proved",
   "theorems": [
    "Ion.Sim.C41_contained",
    "Ion.Sim.C41_status"
   ],
   "note": "Exceptions that are not std::exception are not contained; see C47."
  },
  {
   "property": "C42",
   "status": "partial",
   "theorems": [
    "Ion.Sim.C42_refuted",
    "Ion.Sim.C42_fields_partial"
   ],
   "note": "False: a request without :path or :method is answered with an empty header block. Proved for requests that reach a handler."
  },
  {
   "property": "C43",
   "status": "proved",
   "theorems": [
    "Ion.Sim.C43_content_length"
   ],
   "note": "Header blocks are assumed to fit the 24-bit frame length."
  },
  {
   "property": "C44",
   "status": "partial",
   "theorems": [
    "Ion.Sim.C44_octets",
    "Ion.Sim.C44_streams",
    "Ion.Sim.C44_ignored",
    "Ion.Sim.C44_refuted",
    "Ion.Sim.C44_small_partial"
   ],
   "note": "False: windows are ignored, on every connection whose bodies exceed them. Proved while all bodies of the connection together fit the initial windows."
  },
  {
   "property": "C45",
   "status": "partial",
   "theorems": [
    "Ion.Sim.C45_refuted",
    "Ion.Sim.C45_answered_partial"
   ],
   "note": "False: requests read together with the end of the stream are dropped. Proved until the end of the stream is noticed."
  },
  {
   "property": "C46",
   "status": "proved",
   "theorems": [
    "Ion.Sim.C46_terminates",
    "Ion.Sim.C46_budget",
    "Ion.Sim.C46_frames"
   ],
   "note": ""
  },
  {
   "property": "C47",
   "status": "partial",
   "theorems": [
    "Ion.Sim.C47_refuted",
    "Ion.Sim.C47_defined_partial",
    "Ion.Sim.C47_caused",
    "Ion.Sim.C47_exact",
    "Ion.Sim.C47_returns"
   ],
   "note": "False: see C17, C24 and handlers that throw something else than a std::exception. Proved in the absence of those and of C21, and exactly: process() ends without a result, and how, if and only if after frames that are served comes the first of five kinds of frames (for the direction from the frame to the end of the call the transport has to work and to deliver and take everything)."
  },
  {
   "property": "C48",
   "status": "proved",
   "theorems": [
    "Ion.Sim.C48_idle"
   ],
   "note": ""
  },
  {
   "property": "C73",
   "status": "partial",
   "theorems": [
    "Ion.C73_tcp",
    "Ion.C73_tls_refuted",
    "Ion.C73_tls_partial",
    "Ion.C73_alpn"
   ],
   "note": "Proved for TCP and ALPN. False for TLS: a cut connection is a protocol error when found by a read, and SSL_write returning zero because it would block is a write error. Proved otherwise."
  },
  {
   "property": "C75",
   "status": "partial",
   "theorems": [
    "Ion.C75_refuted",
    "Ion.C75_alpn_partial"
   ],
   "note": "False: a client that does not offer h2 is told that h2 was selected. Proved for clients that offer it."
  },
  {
   "property": "C49",
   "status": "proved",
   "theorems": [
    "Ion.Props.C49_route",
    "Ion.Props.C49_none"
   ],
   "note": ""
  },
  {
   "property": "C50",
   "status": "proved",
   "theorems": [
    "Ion.Props.C50_static",
    "Ion.Props.C50_cases"
   ],
   "note": ""
  },
  {
   "property": "C51",
   "status": "proved",
   "theorems": [
    "Ion.Props.C51_always",
    "Ion.Props.C51_order"
   ],
   "note": ""
  },
  {
   "property": "C52",
   "status": "proved",
   "theorems": [
    "Ion.Props.C52_any",
    "Ion.Props.C52_app"
   ],
   "note": ""
  },
  {
   "property": "C53",
   "status": "partial",
   "theorems": [
    "Ion.Props.C53_refuted",
    "Ion.Props.C53_inside_partial",
    "Ion.Props.C53_existing"
   ],
   "note": "False: weakly_canonical does not resolve links behind an element that does not exist, so a request like x/../link/passwd passes the check and the file outside is served. Proved for requests without .. and for directories whose links stay inside."
  },
  {
   "property": "C54",
   "status": "proved",
   "theorems": [
    "Ion.Props.C54_normal"
   ],
   "note": ""
  },
  {
   "property": "C55",
   "status": "proved",
   "theorems": [
    "Ion.Props.C55_head"
   ],
   "note": ""
  },
  {
   "property": "C56",
   "status": "proved",
   "theorems": [
    "Ion.Props.C56_status",
    "Ion.Props.C56_codes"
   ],
   "note": ""
  },
  {
   "property": "C57",
   "status": "proved",
   "theorems": [
    "Ion.Props.C57_mime"
   ],
   "note": ""
  },
  {
   "property": "C58",
   "status": "proved",
   "theorems": [
    "Ion.Props.C58_relative"
   ],
   "note": ""
  },
  {
   "property": "C67",
   "status": "partial",
   "theorems": [
    "Ion.Sim.C67_entries",
    "Ion.Sim.C67_refuted",
    "Ion.Sim.C67_entry_partial"
   ],
   "note": "False: with repeated :path fields the first is routed and the last logged, and fields may contain line feeds. Proved otherwise."
  },
  {
   "property": "C68",
   "status": "proved",
   "theorems": [
    "Ion.Props.C68_counts",
    "Ion.Props.C68_app"
   ],
   "note": ""
  },
  {
   "property": "C69",
   "status": "proved",
   "theorems": [
    "Ion.Props.C69_parts",
    "Ion.Props.C69_readable",
    "Ion.Props.C69_injective"
   ],
   "note": ""
  },
  {
   "property": "C70",
   "status": "proved",
   "theorems": [
    "Ion.Props.C70_start",
    "Ion.Props.C70_any"
   ],
   "note": ""
  },
  {
   "property": "C71",
   "status": "proved",
   "theorems": [
    "Ion.Props.C71_signals",
    "Ion.Props.C71_killed"
   ],
   "note": "Whether stdout or stderr is broken is what the empty write reports."
  },
  {
   "property": "C72",
   "status": "proved",
   "theorems": [
    "Ion.Props.C72_routes"
   ],
   "note": ""
  },
  {
   "property": "C76",
   "status": "partial",
   "theorems": [
    "Ion.Props.C76_refuted",
    "Ion.Props.C76_head_partial"
   ],
   "note": "False: a custom 404 page is sent as body of a response to HEAD. Proved without one."
  },
  {
   "property": "C77",
   "status": "partial",
   "theorems": [
    "Ion.Props.C77_refuted",
    "Ion.Props.C77_check",
    "Ion.Props.C77_enum",
    "Ion.Props.C77_lower_partial"
   ],
   "note": "False: the check accepts exactly the names of the levels in any case (C77_check), but log_level_enum knows only the lower-case ones (C77_enum), so a name with a capital letter is accepted and then rejected by an exception outside any try block. Proved for names without capitals, and that exactly the others throw."
  },
  {
   "property": "C59",
   "status": "proved",
   "theorems": [
    "Ion.Server.C59_limit",
    "Ion.Server.C59_accept"
   ],
   "note": ""
  },
  {
   "property": "C60",
   "status": "partial",
   "theorems": [
    "Ion.Server.C60_descriptors",
    "Ion.Server.C60_refuted",
    "Ion.Server.C60_registered_partial"
   ],
   "note": "Ownership is proved in full. Registration is false if the kernel refuses one (the failure is only logged, the connection kept); proved otherwise."
  },
  {
   "property": "C61",
   "status": "proved",
   "theorems": [
    "Ion.Server.C61_isolated",
    "Ion.Server.C61_unknown"
   ],
   "note": ""
  },
  {
   "property": "C62",
   "status": "proved",
   "theorems": [
    "Ion.Server.C62_reap",
    "Ion.Server.C62_iteration"
   ],
   "note": ""
  },
  {
   "property": "C63",
   "status": "proved",
   "theorems": [
    "Ion.Server.C63_stops",
    "Ion.Server.C63_runs",
    "Ion.Server.C63_runs_start"
   ],
   "note": ""
  },
  {
   "property": "C64",
   "status": "partial",
   "theorems": [
    "Ion.Server.C64_refuted",
    "Ion.Server.C64_accept_partial"
   ],
   "note": "False: any failure other than would-block or interrupted ends start() with an exception. Proved for those two."
  },
  {
   "property": "C65",
   "status": "proved",
   "theorems": [
    "Ion.Props.C65_ownership",
    "Ion.Props.C65_none_left"
   ],
   "note": ""
  },
  {
   "property": "C66",
   "status": "partial",
   "theorems": [
    "Ion.Props.C66_refuted",
    "Ion.Props.C66_agrees_partial",
    "Ion.Props.C66_bits",
    "Ion.Props.C66_reports",
    "Ion.Props.C66_room",
    "Ion.Props.C66_errors",
    "Ion.Props.C66_poll_table",
    "Ion.Props.C66_poll_reports"
   ],
   "note": "False when a socket is closed without remove. Proved when every close is accompanied by remove, as in the server (C60)."
  },
  {
   "property": "C78",
   "status": "partial",
   "theorems": [
    "Ion.Server.C78_refuted",
    "Ion.Server.C78_watched_partial"
   ],
   "note": "False for a client that has sent only the preface (C40). Proved otherwise, if the kernel refuses no registration."
  },
  {
   "property": "C79",
   "status": "partial",
   "theorems": [
    "Ion.Server.C79_refuted",
    "Ion.Server.C79_listens_partial"
   ],
   "note": "False: the failure is only logged and start() loops without serving. Proved if the poller was created and no registration refused."
  },
  {
   "property": "C80",
   "status": "proved",
   "theorems": [
    "Ion.Server.C80_alone",
    "Ion.Server.C80_call"
   ],
   "note": ""
  },
  {
   "property": "C81",
   "status": "proved",
   "theorems": [
    "Ion.Server.C81_batch"
   ],
   "note": ""
  },
  {
   "property": "C82",
   "status": "partial",
   "theorems": [
    "Ion.Server.C82_refuted",
    "Ion.Server.C82_handshake_partial"
   ],
   "note": "False for a handshake that waits to write. Proved for one that waits to read."
  },
  {
   "property": "C83",
   "status": "proved",
   "theorems": [
    "Ion.Sim.C83_served",
    "Ion.Sim.C83_determined",
    "Ion.Sim.C83_refused"
   ],
   "note": "Served as the specification (Spec/Serve.lean) says, which allows one outcome only."
  },
  {
   "property": "C84",
   "status": "partial",
   "theorems": [
    "Ion.Sim.C84_refuted",
    "Ion.Sim.C84_end_to_end_partial"
   ],
   "note": "Proved when response fields outside the static table are few, within the table limit and encodable, and names outside the static table always carry the same value; false otherwise (the defect of C20): a second response with another value of such a name is read by the client with another name."
  },
  {
   "property": "C85",
   "status": "proved",
   "theorems": [
    "Ion.Sim.C85_reason",
    "Ion.Sim.C85_handshake",
    "Ion.Sim.C85_given_up"
   ],
   "note": ""
  },
  {
   "property": "C86",
   "status": "partial",
   "theorems": [
    "Ion.Sim.C86_refuted",
    "Ion.Sim.C86_close",
    "Ion.Sim.C86_last_partial"
   ],
   "note": "One GOAWAY frame with the right error code, and idempotence: proved for every state. The last stream identifier is always 1, so it is right exactly if the highest-numbered request was on stream 1."
  },
  {
   "property": "C87",
   "status": "partial",
   "theorems": [
    "Ion.Sim.C87_refuted",
    "Ion.Sim.C87_never",
    "Ion.Sim.C87_answered_partial"
   ],
   "note": "False: no connection ever produces a PING frame (proved for all runs), so no PING is answered."
  },
  {
   "property": "C88",
   "status": "partial",
   "theorems": [
    "Ion.Sim.C88_refuted_padding",
    "Ion.Sim.C88_refuted_continuation",
    "Ion.Sim.C88_assembled_partial"
   ],
   "note": "False for padded HEADERS frames and for blocks continued in CONTINUATION frames. Proved for clients that send neither."
  },
  {
   "property": "C89",
   "status": "partial",
   "theorems": [
    "Ion.Sim.C89_refuted",
    "Ion.Sim.C89_streams_partial"
   ],
   "note": "False: requests on stream 0, on even streams and on streams already used are answered. For clients that use identifiers properly each stream gets one response."
  },
  {
   "property": "C90",
   "status": "partial",
   "theorems": [
    "Ion.Sim.C90_refuted",
    "Ion.Sim.C90_sizes_partial",
    "Ion.Sim.C90_exact"
   ],
   "note": "False: a header block of more than 16384 octets is sent in one HEADERS frame. Proved when header blocks are not that long. These are exactly the cases."
  },
  {
   "property": "C91",
   "status": "partial",
   "theorems": [
    "Ion.Sim.C91_refuted",
    "Ion.Sim.C91_refused_partial",
    "Ion.Sim.C91_exact"
   ],
   "note": "False for seven kinds of malformed frames, which are ignored or even answered. Proved for SETTINGS frames of a wrong length. Exactly which are refused is proved: those that cannot be read at all."
  },
  {
   "property": "C92",
   "status": "proved",
   "theorems": [
    "Ion.Props.C92_status"
   ],
   "note": "The rendering of the numbers as HTML is a parameter."
  },
  {
   "property": "C93",
   "status": "proved",
   "theorems": [
    "Ion.Server.C93_event",
    "Ion.Server.C93_closed",
    "Ion.Server.C93_reason"
   ],
   "note": ""
  },
  {
   "property": "C94",
   "status": "proved",
   "theorems": [
    "Ion.Server.C94_iteration",
    "Ion.Server.C94_exception"
   ],
   "note": ""
  },
  {
   "property": "C95",
   "status": "proved",
   "theorems": [
    "Ion.Server.C95_watched"
   ],
   "note": ""
  },
  {
   "property": "C96",
   "status": "partial",
   "theorems": [
    "Ion.Sim.C96_refuted",
    "Ion.Sim.C96_stuck_partial",
    "Ion.Sim.C96_given_up_partial"
   ],
   "note": "Refuted: the octets that could not be written stay in the buffer, so every later call tries to write them again and says \"want write\". Proved: such a call does nothing else and makes no progress (so the connection is closed after five seconds, C62, or earlier by an error or hangup event, C93); the connection never waits for input again, and is given up once nothing is unsent."
  },
  {
   "property": "C97",
   "status": "proved",
   "theorems": [
    "Ion.Props.C97_listener"
   ],
   "note": ""
  },
  {
   "property": "C98",
   "status": "proved",
   "theorems": [
    "Ion.Server.C98_closed",
    "Ion.Server.C98_thrown"
   ],
   "note": ""
  },
  {
   "property": "C99",
   "status": "partial",
   "theorems": [
    "Ion.Props.C99_success",
    "Ion.Props.C99_refuted",
    "Ion.Props.C99_status_partial"
   ],
   "note": "Status 0 only for these reasons: proved. The converse is false: if standard output is a broken pipe, writing the last log line kills the process by SIGPIPE, since the handler is gone by then; a log level in upper case terminates it. Proved otherwise."
  },
  {
   "property": "C100",
   "status": "partial",
   "theorems": [
    "Ion.Props.C100_refuted",
    "Ion.Props.C100_client_partial"
   ],
   "note": "False for either behaviour of the kernel: where the empty write to a broken pipe succeeds (Linux) the handler notices nothing; where it fails SIGPIPE is raised again and the handler is called for ever. Proved for SIGPIPE caused by clients."
  },
  {
   "property": "C101",
   "status": "partial",
   "theorems": [
    "Ion.Server.C101_refuted",
    "Ion.C101_poisoned",
    "Ion.C101_left",
    "Ion.C101_empty_partial"
   ],
   "note": "False: a failed read leaves its errors on the queue, and nothing removes them until the next SSL_accept. Until then every read or write of any connection that would block is reported as a protocol error; the witness is a server that drops a client whose request it has read because another client cut its connection before. Proved for an empty queue, and for handshakes."
  },
  {
   "property": "C102",
   "status": "proved",
   "theorems": [
    "Ion.Props.C102_timestamp",
    "Ion.Props.C102_reading",
    "Ion.Props.C102_address",
    "Ion.Props.C102_line"
   ],
   "note": "Line feeds in header fields are the defect of C67."
  },
  {
   "property": "C103",
   "status": "partial",
   "theorems": [
    "Ion.Sim.C103_refuted",
    "Ion.Sim.C103_paid_partial"
   ],
   "note": "False: the loop of internal_process() reads again before every frame, so that one call acts on any number of frames if the client sends each while the one before is acted on. Proved: nine octets buffered or read are needed for each frame of a call."
  },
  {
   "property": "C104",
   "status": "partial",
   "theorems": [
    "Ion.Sim.C104_refuted",
    "Ion.Sim.C104_silent_partial"
   ],
   "note": "False: every octet received counts as activity; an execution without end in which a meaningless frame every four seconds keeps the connection. Proved: a connection without any progress has timed out after five seconds, whatever calls are made."
  },
  {
   "property": "C105",
   "status": "partial",
   "theorems": [
    "Ion.Sim.C105_refuted",
    "Ion.Sim.C105_called_partial",
    "Ion.Sim.C105_reached"
   ],
   "note": "False: nine kinds of malformed requests (among them upper-case names, a pseudo-field after a field, two :path fields, a missing :scheme, a connection field) reach the handler. Proved: what the handler sees is the first :path and the first :method of the section, and it is called exactly if both are there; for well-formed requests these are the only ones."
  },
  {
   "property": "C106",
   "status": "proved",
   "theorems": [
    "Ion.Sim.C106_kinds"
   ],
   "note": ""
  },
  {
   "property": "C107",
   "status": "partial",
   "theorems": [
    "Ion.Sim.C107_refuted",
    "Ion.Sim.C107_ignored_partial"
   ],
   "note": "False on every connection: no WINDOW_UPDATE is ever sent, so a client that keeps to the windows can send 65535 octets of DATA in the whole life of a connection. Proved: DATA frames are accepted and dropped."
  },
  {
   "property": "C108",
   "status": "partial",
   "theorems": [
    "Ion.Props.C108_refuted",
    "Ion.Props.C108_wanted_partial",
    "Ion.Props.C108_defaults"
   ],
   "note": "False as the code is written: the options are bound to a local variable of a function that has returned by the time the command line is parsed, so the first option given is written to a dead object unless the compiler leaves out the copy (which it may, and need not). Proved for compilers that do: acceptable command lines have the effect described, others end the program with status 105; without options it cannot start, with --cleartext alone it answers 404 to everything."
  },
  {
   "property": "C109",
   "status": "partial",
   "theorems": [
    "Ion.Props.C109_refuted",
    "Ion.Props.C109_owned_partial",
    "Ion.Props.C109_context"
   ],
   "note": "False: if SSL_set_fd fails, the constructor throws and the SSL object is never freed. Proved: no object is freed twice, none that a transport holds has been freed, no two transports hold the same, and the objects left over are exactly those of such constructors; contexts are freed once."
  },
  {
   "property": "C110",
   "status": "partial",
   "theorems": [
    "Ion.Props.C110_refuted",
    "Ion.Props.C110_routes",
    "Ion.Props.C110_static_partial"
   ],
   "note": "False: with a query the built-in routes and index pages are not found. Proved: no target with a query reaches a built-in route; targets for files other than index pages are answered as their paths."
  },
  {
   "property": "C111",
   "status": "partial",
   "theorems": [
    "Ion.Props.C111_refuted",
    "Ion.Props.C111_plain_partial",
    "Ion.Props.C111_never"
   ],
   "note": "False: /static/%69ndex.html is not found where /static/index.html is. Proved for targets without percent signs; and that nothing is ever decoded: where no name has a percent sign, no target without .. and with a percent sign in its path is answered with a file."
  },
  {
   "property": "C112",
   "status": "partial",
   "theorems": [
    "Ion.Props.C112_refuted",
    "Ion.Props.C112_limit_partial"
   ],
   "note": "False: updates are accepted anywhere in a block and up to 65536, sixteen times what the server announces. Proved: an accepted block has no update above 65536, and such an update after any accepted beginning is a protocol error."
  },
  {
   "property": "C113",
   "status": "proved",
   "theorems": [
    "Ion.Server.C113_bounded"
   ],
   "note": "Assumes that a read returns at most the 16384 octets it was asked for."
  },
  {
   "property": "C114",
   "status": "partial",
   "theorems": [
    "Ion.Sim.C114_refuted",
    "Ion.Sim.C114_client_partial",
    "Ion.Sim.C114_lengths_partial"
   ],
   "note": "False: 63 files of different sizes asked for over one connection; the last response is not a header block (indices do not fit their octet). Proved: all responses are read as the handlers returned them as long as at most 65 different fields outside the static table are sent that fit the client table; in particular for at most 43 different lengths."
  },
  {
   "property": "C115",
   "status": "proved",
   "theorems": [
    "Ion.Sim.C115_fields",
    "Ion.Sim.C115_names",
    "Ion.Sim.C115_length"
   ],
   "note": ""
  },
  {
   "property": "C116",
   "status": "partial",
   "theorems": [
    "Ion.Sim.C116_refuted",
    "Ion.Sim.C116_amplified",
    "Ion.Sim.C116_bound_partial"
   ],
   "note": "False for every proportion below 8192: one frame of 16384 octets becomes a request of 67043344 octets (an entry of 8192 octets referred to 8183 times). Proved: at most 8192 octets for every octet of the frame, and at most 128 MiB."
  },
  {
   "property": "C117",
   "status": "partial",
   "theorems": [
    "Ion.Props.C117_refuted",
    "Ion.Props.C117_unchanged",
    "Ion.Props.C117_inside_partial",
    "Ion.Props.C117_failed"
   ],
   "note": "False: a page replaced by a link after the check is followed out of the directory. Proved: it holds if, when the file is opened, the links of the directory stay inside it; when exactly 500 is answered; without changes the handler is the one of C53-C58."
  },
  {
   "property": "C118",
   "status": "partial",
   "theorems": [
    "Ion.Props.C118_refuted",
    "Ion.Props.C118_below_partial"
   ],
   "note": "False for every prefix: a target that goes on without a separator is answered as if there were one (/staticindex.html). Proved for prefixes that end with a separator."
  },
  {
   "property": "C119",
   "status": "partial",
   "theorems": [
    "Ion.Props.C119_refuted",
    "Ion.Props.C119_outside_partial"
   ],
   "note": "False: /static/../../home/alice/... is resolved outside first, so whether /home/alice is a link decides between 200 and 403. Proved for targets without .. that are not absolute, in directories without links."
  },
  {
   "property": "C120",
   "status": "partial",
   "theorems": [
    "Ion.Sim.C120_refuted",
    "Ion.Sim.C120_closing_partial"
   ],
   "note": "False of every connection the server runs: graceful_shutdown is never called. Proved: after close() the call that finds everything written shuts the transport down with nothing unsent."
  },
  {
   "property": "C121",
   "status": "proved",
   "theorems": [
    "Ion.Sim.C121_nothing_owed"
   ],
   "note": "At most the GOAWAY frame produced in the same call is unsent."
  },
  {
   "property": "C122",
   "status": "partial",
   "theorems": [
    "Ion.Server.C122_refuted",
    "Ion.Server.C122_read_partial"
   ],
   "note": "False: while output is blocked the level-triggered read event stays armed, and each one is taken without anything being read. Proved: with nothing unsent and the handshake done, a read event makes the connection read."
  },
  {
   "property": "C123",
   "status": "partial",
   "theorems": [
    "Ion.Sim.C123_refuted",
    "Ion.C123_int",
    "Ion.C123_exact_partial",
    "Ion.C123_wrote",
    "Ion.C123_too_large"
   ],
   "note": "False from 2^31 octets on: the size becomes a negative int, SSL_write refuses it, and the connection wants to write for ever; a connection that gets there is shown. Proved below 2^31, where the call is the one the other TLS theorems are about."
  },
  {
   "property": "C124",
   "status": "partial",
   "theorems": [
    "Ion.Props.C124_refuted",
    "Ion.Props.C124_exact_partial"
   ],
   "note": "False: the access logger takes over the level of --log-level, so with warn, error, critical or off the file stays empty. Exactly when it holds is proved."
  },
  {
   "property": "C125",
   "status": "partial",
   "theorems": [
    "Ion.Props.C125_refuted",
    "Ion.Props.C125_in_force_partial",
    "Ion.Props.C125_process",
    "Ion.Props.C125_before_try"
   ],
   "note": "False: a failing prctl and an access log that cannot be opened are only logged, and only the exact value \"true\" disables telemetry. Proved if the calls succeed; the model of the process (C97-C100) is the case of a start-up that succeeds."
  },
  {
   "property": "C126",
   "status": "proved",
   "theorems": [
    "Ion.Props.C126_readable",
    "Ion.Props.C126_readable_average"
   ],
   "note": "For any style sheet, version and instance id. `C126_readable` takes any text of averages without a less-than sign, `C126_readable_average` the one the program makes."
  },
  {
   "property": "C127",
   "status": "partial",
   "theorems": [
    "Ion.Sim.C127_refuted",
    "Ion.Sim.C127_span_partial"
   ],
   "note": "False: a request without :path or :method is answered 400 but its span says nothing. Proved for requests that reach a handler."
  },
  {
   "property": "C128",
   "status": "partial",
   "theorems": [
    "Ion.Props.C128_refuted",
    "Ion.Props.C128_header",
    "Ion.Props.C128_line_partial"
   ],
   "note": "False: a target with a line feed that is refused is logged as it is, so that any line can be made to appear in the log at the default level; at level debug with any header field. Proved without line feeds."
  },
  {
   "property": "C129",
   "status": "proved",
   "theorems": [
    "Ion.Sim.C129_kept",
    "Ion.Sim.C129_answered",
    "Ion.Sim.C129_program"
   ],
   "note": "What conforming means is in Spec.Acceptable: readable field blocks in one HEADERS frame without padding (see C88 and C91 for what ion makes of others), proper lengths, no GOAWAY. The program needs no assumption about its handlers."
  },
  {
   "property": "C130",
   "status": "proved",
   "theorems": [
    "Ion.Server.C130_kept",
    "Ion.Server.C130_answered",
    "Ion.Server.C130_life",
    "Ion.Server.C130_program"
   ],
   "note": "Each answer is the handler's for a world that calls of handlers lead to from the world at the start. Events for which handling the other connections' events fails (C47) are outside the histories: Reach has only events that were handled."
  },
  {
   "property": "C131",
   "status": "proved",
   "theorems": [
    "Ion.Server.C131_fetched",
    "Ion.Server.C131_file",
    "Ion.Server.C131_resolved"
   ],
   "note": "The limit of 43 requests is that of C114: responses with more different fields can be unreadable (C114_refuted)."
  },
  {
   "property": "C132",
   "status": "proved",
   "theorems": [
    "Ion.Props.C132_found"
   ],
   "note": "Links on the way are C53; other targets C54 and C56; directories that may not be searched and names that are too long C150."
  },
  {
   "property": "C133",
   "status": "partial",
   "theorems": [
    "Ion.Sim.C133_refuted",
    "Ion.Sim.C133_exact",
    "Ion.Server.C133_program_partial"
   ],
   "note": "False: a header block of 2^24 octets or more is put into one HEADERS frame and its length cut to 24 bits. Exactly then, by C133_exact. The program (with files of fewer than 10^19 octets) never writes such a block."
  },
  {
   "property": "C134",
   "status": "partial",
   "theorems": [
    "Ion.Props.C134_refuted",
    "Ion.Props.C134_exact_partial",
    "Ion.Props.C134_exact"
   ],
   "note": "False with '..': `/static/x/../home` is served although there is no `x`, since weakly_canonical cancels the rest of a path by its names. Proved, in both directions, for all targets without '..'; `C134_exact` says which file is served for every target, by what the operating system finds and the rule for names."
  },
  {
   "property": "C135",
   "status": "partial",
   "theorems": [
    "Ion.Server.C135_refuted",
    "Ion.Server.C135_hold",
    "Ion.Server.C135_room_partial"
   ],
   "note": "False: 128 clients that send one frame of an unknown type every five seconds hold all places for ever, and every client that comes is closed at once, although no handler is ever called. Proved: a client that comes gets a connection in the iteration that finds it if a place is free or one of the connections made no progress for more than five seconds."
  },
  {
   "property": "C136",
   "status": "partial",
   "theorems": [
    "Ion.Sim.C136_refuted",
    "Ion.Sim.C136_acted_partial",
    "Ion.Sim.C136_caused"
   ],
   "note": "False: a request and its cancellation that are read together are handled one after the other, so the handler is called and the whole response sent. Proved from when the RST_STREAM frame is acted on: everything produced before has been accepted by the transport (or was the server's SETTINGS frame only), and nothing is produced on the stream unless a further HEADERS frame comes for it. Generally, every frame produced after a frame was acted on is on stream 0 or on the stream of a HEADERS frame acted on then or later."
  },
  {
   "property": "C137",
   "status": "partial",
   "theorems": [
    "Ion.Sim.C137_refuted",
    "Ion.Sim.C137_whole_partial"
   ],
   "note": "False: a request is answered at its first HEADERS frame, before its content has come, and trailers are answered as another request, with a 400 response that has no `:status`. Proved for clients that end each request with its HEADERS frame and use each stream once."
  },
  {
   "property": "C138",
   "status": "proved",
   "theorems": [
    "Ion.Props.C138_answer",
    "Ion.C138_client",
    "Ion.Props.C138_found"
   ],
   "note": "Where a target leads is defined as in `C134_exact`, also with '..'; without '..' it is what the operating system finds (`C138_found`). For HEAD a 404 has the content of the page too (C76)."
  },
  {
   "property": "C139",
   "status": "proved",
   "theorems": [
    "Ion.Server.C139_recent",
    "Ion.Server.C139_leaves"
   ],
   "note": "Time is added to the model of the loop: an iteration begins at a clock value, everything in it reads the clock at that value or later, poll returns after at most POLL_TIMEOUT, the rest takes at most `work`. That has_timed_out is not met earlier than five seconds is C48/C62."
  },
  {
   "property": "C140",
   "status": "partial",
   "theorems": [
    "Ion.C140_field",
    "Ion.C140_distinct",
    "Ion.C140_repeat_partial",
    "Ion.C140_refuted_big",
    "Ion.C140_refuted"
   ],
   "note": "The statement for one field and the one about the table are exact. The statement about repeated lists is false where the table has no room: a field bigger than the table is written out every time (`C140_refuted`). `C140_repeat_partial` proves it whenever the table has room for all fields written meanwhile."
  },
  {
   "property": "C141",
   "status": "proved",
   "theorems": [
    "Ion.KeyLog.C141_keylog",
    "Ion.KeyLog.C141_not_asked"
   ],
   "note": "The lines are what OpenSSL passes; permissions of the file are not modelled."
  },
  {
   "property": "C142",
   "status": "proved",
   "theorems": [
    "Ion.Server.C142_stops_in_time",
    "Ion.Server.Loop.run"
   ],
   "note": "Time is added to the loop as in C139. `Loop.run` ties the timed loop to the model of start()."
  },
  {
   "property": "C143",
   "status": "partial",
   "theorems": [
    "Ion.Props.C143_average_partial",
    "Ion.Props.C143_refuted",
    "Ion.Props.C143_hundredths"
   ],
   "note": "False: the request for the page is counted before its handler runs but timed after it, so after one request of 10 ms the page shows 5.00 ms (`C143_refuted`). True: the page shows the total time divided by the number of earlier requests plus one, correctly rounded through the double arithmetic, for totals below 2^44 microseconds and fewer than 2^53 requests."
  },
  {
   "property": "C144",
   "status": "partial",
   "theorems": [
    "Ion.Props.C144_agree_partial",
    "Ion.Props.C144_refuted"
   ],
   "note": "False: the first page shows one request and `No requests yet`. True: the number shown is the sum plus one (the request for the page) plus the number of requests whose handler threw."
  },
  {
   "property": "C145",
   "status": "partial",
   "theorems": [
    "Ion.HandlerLife.C145_usable_partial",
    "Ion.HandlerLife.C145_owned",
    "Ion.HandlerLife.C145_request",
    "Ion.HandlerLife.C145_refuted"
   ],
   "note": "False: the handler for a static file refers to the caller's method string and to an element of a vector; with a temporary string, or after add_static_handler, calling it is undefined, and it changes with the string. True as long as neither is touched, always for other handlers, and for the way connections use it."
  },
  {
   "property": "C146",
   "status": "partial",
   "theorems": [
    "Ion.Server.C146_refuted",
    "Ion.Server.C146_harmless_partial"
   ],
   "note": "False of every server: the flag that stop() sets is never reset, so that a further start() listens and returns at once. True: it does no harm; connections of the first call stay open, unwatched, until the server is destroyed."
  },
  {
   "property": "C147",
   "status": "proved",
   "theorems": [
    "Ion.Server.C147_reason"
   ],
   "note": ""
  },
  {
   "property": "C148",
   "status": "proved",
   "theorems": [
    "Ion.PollServer.C148_same",
    "Ion.PollServer.C148_serves",
    "Ion.PollServer.C148_watches"
   ],
   "note": ""
  },
  {
   "property": "C149",
   "status": "proved",
   "theorems": [
    "Ion.Sim.C149_determined"
   ],
   "note": "Extends C25, which is about connections that wait for input, to all moments."
  },
  {
   "property": "C150",
   "status": "partial",
   "theorems": [
    "Ion.Props.C150_refuted",
    "Ion.Props.C150_forbidden",
    "Ion.Props.C150_notFound",
    "Ion.Props.C150_noBase",
    "Ion.Props.C150_plain_partial"
   ],
   "note": "False: std::filesystem throws for a name longer than NAME_MAX and for a directory that may not be searched, and sanitize_path answers exceptions like paths that lead out (C150_refuted). Exactly when 403 and 404 are given: C150_forbidden, C150_notFound, C150_noBase. C150_plain_partial: targets that are never refused."
  },
  {
   "property": "C151",
   "status": "partial",
   "theorems": [
    "Ion.Props.C151_refuted",
    "Ion.Props.C151_reading",
    "Ion.Props.C151_file_partial"
   ],
   "note": "False: texts of the client are put between quotation marks as they are, so that with one request a client can write all lines it likes into the file. Proved for requests without quotation marks and line feeds in their fields and without a space in the method."
  },
  {
   "property": "C152",
   "status": "proved",
   "theorems": [
    "Ion.Sim.C152_streams"
   ],
   "note": "Extends C149, which is about the same octets."
  },
  {
   "property": "C153",
   "status": "partial",
   "theorems": [
    "Ion.Sim.C153_refuted",
    "Ion.Sim.C153_states_partial"
   ],
   "note": "False: ion keeps no stream states; such frames are skipped, and a HEADERS frame on an ended stream is answered as a new request on it. Proved: what the server does depends on the HEADERS, SETTINGS and GOAWAY frames without their streams and on nothing else."
  },
  {
   "property": "C154",
   "status": "proved",
   "theorems": [
    "Ion.Sim.C154_size",
    "Ion.Sim.C154_bound"
   ],
   "note": ""
  },
  {
   "property": "C155",
   "status": "proved",
   "theorems": [
    "Ion.Sim.C155_undefined",
    "Ion.Sim.C155_only"
   ],
   "note": ""
  },
  {
   "property": "C156",
   "status": "partial",
   "theorems": [
    "Ion.C156_refuted",
    "Ion.C156_string",
    "Ion.C156_block_partial",
    "Ion.C156_bound",
    "Ion.Sim.C156_responses"
   ],
   "note": "False: every string of more than three octets is written in the Huffman code, also where that is longer. It holds if all octets have codes of at most eight bits; in any case a block is not longer than one of strings four times as long. The exact length of each string literal is given, and the octets of a response are bounded by what the application returned."
  },
  {
   "property": "C157",
   "status": "partial",
   "theorems": [
    "Ion.Sim.C157_refuted",
    "Ion.Sim.C157_read_partial",
    "Ion.Sim.C157_write_partial"
   ],
   "note": "False, in two ways OpenSSL forbids: writes are repeated after an error of TLS, and a connection whose read failed because of the socket is read again and what arrives is answered. It holds after the end of the input and after a read that TLS failed: at most a GOAWAY frame is produced, and the connection is given up. After a write that failed for good exactly what was offered is offered again, and nothing is read before all of it is accepted; no handshake, no shutdown, and nothing received is acted upon."
  },
  {
   "property": "C158",
   "status": "partial",
   "theorems": [
    "Ion.Sim.C158_refuted",
    "Ion.Sim.C158_states_partial",
    "Ion.Sim.C158_exact_partial"
   ],
   "note": "False: a request with content and trailers is answered when its HEADERS frame comes, which ends the stream, and again on the same stream when the trailers come. It holds if every HEADERS frame opens a new stream, and while the connection waits for input only then."
  },
  {
   "property": "C159",
   "status": "partial",
   "theorems": [
    "Ion.Sim.C159_refuted",
    "Ion.Sim.C159_settings_partial"
   ],
   "note": "False: a client whose first frame is HEADERS, and who then sends three settings out of range, is served, and its settings are acknowledged. What holds is that settings do no harm: whatever a client sends besides its HEADERS frames, settings or anything else, the calls of handlers, the responses and the log are determined by its HEADERS frames alone."
  },
  {
   "property": "C160",
   "status": "partial",
   "theorems": [
    "Ion.Sim.C160_refuted",
    "Ion.Sim.C160_shown",
    "Ion.Sim.C160_kept",
    "Ion.Sim.C160_loud_partial",
    "Ion.Sim.C160_same_partial"
   ],
   "note": "False at level debug: two requests that differ only in a never-indexed authorization field leave different lines. Every field of every decoded request is written there, and every field the decoder remembers is written again for every later HEADERS frame. What holds is that at level info, the default, and above, a frame leaves a reason in fixed words and numbers, or the status and the length of the response, what is missing from the request, and what the application says; so two requests answered with the same status and length leave the same lines if the application logs nothing. The tables are well formed by hypothesis, as in every state that is reached (Steps.tables)."
  },
  {
   "property": "C161",
   "status": "proved",
   "theorems": [
    "Ion.Sim.C161_refused",
    "Ion.Sim.C161_only",
    "Ion.Sim.C161_preface"
   ],
   "note": "The line is the one for what is wrong with that frame, as the RFC-style grammar of blocks and the table say (Spec.Fault, Spec.TooBig); only the bit position reported for Huffman code is left open. For the model of what is logged (Model/FrameLog.lean). Frames whose handling is undefined behaviour or lets an exception escape are left out; that a line of the application does not look like a refusal is a hypothesis of the converse. The header tables are well formed by hypothesis, as in every state that is reached (Steps.tables)."
  },
  {
   "property": "C162",
   "status": "partial",
   "theorems": [
    "Ion.Server.C162_refuted",
    "Ion.Server.C162_event_partial",
    "Ion.Server.C162_reap_partial"
   ],
   "note": "False, always: whenever a connection ends with a hang-up or an error, connections_.erase closes the socket before poller.remove, so EPOLL_CTL_DEL fails with EBADF and a warning is logged. What holds is that, if the kernel refuses nothing, this is the only event with a warning, and that reaping causes none. For the build with epoll; the poller with poll() does not call the kernel on removal."
  },
  {
   "property": "C163",
   "status": "partial",
   "theorems": [
    "Ion.Server.C163_refuted",
    "Ion.Server.C163_debug_partial"
   ],
   "note": "False at level info: a connection that ends with a hang-up or an error leaves its line at level debug only (and the misleading warning of C162). What holds is that at level debug the lines count the connections, for every course of start() that returns or goes on; what start() has logged when an exception leaves it is not covered. Lines of connections and transports themselves are not part of this model."
  },
  {
   "property": "C164",
   "status": "proved",
   "theorems": [
    "Ion.C164_tcp",
    "Ion.C164_tls",
    "Ion.Sim.C164_why",
    "Ion.Sim.C164_only"
   ],
   "note": "The theorems about connections are for transports that log an error whenever an operation fails for good and no other warnings or errors (Sincere); C164_tcp and C164_tls show that each operation of the two transports does. The reason may have been logged by an earlier call than the one that gives the connection up (failed write, C96), and for a frame that is too long it is a warning. A failed handshake is logged by the transport, or not at all if the client closed the connection. Texts of strerror and OpenSSL are parameters."
  },
  {
   "property": "C165",
   "status": "proved",
   "theorems": [
    "Ion.Props.C165_told",
    "Ion.Props.C165_attempts",
    "Ion.Props.C165_noBase",
    "Ion.Props.messages_of_lines"
   ],
   "note": "For a file system that does not change during the request and in which an opened file can be read whole. messages_of_lines says that the texts of C128 are the warnings of this model. Texts of std::filesystem's exceptions are parameters. What leads out is defined by OpensAs and StandsFor (C150)."
  },
  {
   "property": "C166",
   "status": "proved",
   "theorems": [
    "Ion.Props.C166_digits",
    "Ion.Props.C166_distinct",
    "Ion.Props.C166_shown"
   ],
   "note": "How the number is drawn (std::random_device, std::mt19937) is not modelled; it is any number."
  },
  {
   "property": "C167",
   "status": "partial",
   "theorems": [
    "Ion.C167_refuted",
    "Ion.C167_entry_partial",
    "Ion.C167_alone_partial",
    "Ion.C167_listing",
    "Ion.Sim.C167_before",
    "Ion.Sim.C167_after"
   ],
   "note": "Refuted: \"current sz\" in the line after an insertion is the size of the entry inserted (dynamic_table.cpp:36 passes entry_size). It is the size of the table exactly if nothing else is in the table (C167_alone_partial). The listings of the contents are right (C167_listing, C167_before, C167_after)."
  },
  {
   "property": "C168",
   "status": "partial",
   "theorems": [
    "Ion.Sim.C168_refuted",
    "Ion.Sim.C168_told_partial",
    "Ion.Sim.C168_request"
   ],
   "note": "Refuted: the line about the header is written at each attempt to read the frame, so once more for each time that only a part of the payload has arrived, and also for a frame that is too long. C168_told_partial says exactly what is logged in each case; all of it is true of the frame."
  },
  {
   "property": "C169",
   "status": "proved",
   "theorems": [
    "Ion.Sim.C169_process",
    "Ion.Sim.C169_close",
    "Ion.Sim.C169_all",
    "Ion.C169_reads"
   ],
   "note": "For any application and transport whose own lines do not begin with \"connection state changed\"."
  },
  {
   "property": "C170",
   "status": "proved",
   "theorems": [
    "Ion.Sim.C170_process",
    "Ion.Sim.C170_all",
    "Ion.Sim.C170_totals"
   ],
   "note": "For any application and transport whose own lines do not look like these."
  },
  {
   "property": "C171",
   "status": "proved",
   "theorems": [
    "Ion.C171_accepted",
    "Ion.C171_refused",
    "Ion.C171_position"
   ],
   "note": "For tables in the state that insertions and size changes keep (C10). The number after \"current sz\" is the size of the entry, not of the table (see C167)."
  },
  {
   "property": "C172",
   "status": "proved",
   "theorems": [
    "Ion.Sim.C172_process",
    "Ion.Sim.C172_all"
   ],
   "note": "For any application and transport whose own lines do not look like these, and header blocks below 2^24 octets (see C133 for larger ones)."
  },
  {
   "property": "C173",
   "status": "proved",
   "theorems": [
    "Ion.Sim.C173_foreign",
    "Ion.Sim.C173_served",
    "Ion.Sim.C173_calls"
   ],
   "note": "Header blocks below 2^24 octets for the part on frames sent, as in C172. A line here is one message to spdlog; that messages can contain line feeds is C128."
  },
  {
   "property": "C174",
   "status": "partial",
   "theorems": [
    "Ion.Server.C174_refuted",
    "Ion.Server.C174_timeout_partial",
    "Ion.Server.C174_server",
    "Ion.Server.C174_unused",
    "Ion.Server.C174_buffer"
   ],
   "note": "False of timeouts of 2^31 ms and more: the number is cut to 32 bits, so that the kernel waits for ever or too short. Exact for all shorter ones, among them the server's 25 ms; to_poll_timeout_ms, which would avoid this, is not called. The part on the buffer is proved."
  },
  {
   "property": "C175",
   "status": "proved",
   "theorems": [
    "Ion.Sim.C175_others",
    "Ion.Sim.C175_call",
    "Ion.Sim.C175_close",
    "Ion.Server.C175_server"
   ],
   "note": "About the messages given to the logger; that a message with a line break in it can look like two in the file is C128. Of the pollers only epoll, which ion uses on Linux; the messages of main are not included."
  },
  {
   "property": "C176",
   "status": "partial",
   "theorems": [
    "Ion.Sim.C176_refuted",
    "Ion.Sim.C176_written",
    "Ion.Sim.C176_nested",
    "Ion.Sim.C176_off",
    "Ion.Sim.C176_warn_partial",
    "Ion.Sim.C176_error"
   ],
   "note": "False of error: a frame that is too big is a warning only, so that at level error the connection ends without a word in the log. True of trace, debug, info and warn; C176_error says exactly what is left at level error. The meaning of spdlog's levels is taken from its documentation."
  },
  {
   "property": "C177",
   "status": "partial",
   "theorems": [
    "Ion.Sim.C177_refuted",
    "Ion.Sim.C177_read_partial",
    "Ion.Sim.C177_somebody"
   ],
   "note": "False of messages with line breaks, which clients can cause with a target that has one (C128). True of all logs without such messages: no message of the program begins with a bracket, so that a message is never taken for a trace."
  },
  {
   "property": "C178",
   "status": "partial",
   "theorems": [
    "Ion.Props.C178_refuted",
    "Ion.Props.C178_ends_partial",
    "Ion.Props.C178_levels"
   ],
   "note": "False of ends by std::terminate: log_level_enum and configure_telemetry are called outside the try block, so that a level in capital letters (C77) or a failing exporter end the process without a message. Proved of all ends with an exit status, with standard output not a broken pipe (C100)."
  },
  {
   "property": "C179",
   "status": "partial",
   "theorems": [
    "Ion.Props.C179_refuted",
    "Ion.Props.C179_announced",
    "Ion.Props.C179_kept_partial"
   ],
   "note": "False of prefixes with quotes: the message does not escape them, so that two command lines with different prefixes and directories log the same. True of everything else. A level above info leaves the announcements out (C176)."
  }
 ]
}