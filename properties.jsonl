{"id": "C01", "title": "HPACK integer round trip", "statement": "Encoding any 32-bit value with IntegerEncoder::encode at prefix width 1..8, OR-ing arbitrary flag bits above the prefix into the first octet, appending arbitrary bytes and calling IntegerDecoder::decode with the same width returns exactly that value and leaves the reader exactly at the appended bytes.", "quantifier": "all 32-bit values, all prefix widths 1..8, all flag bits, all trailing bytes", "why_tests_cant": "2^32 values x 8 widths x unbounded suffixes; the unit tests sample five values", "anchors": ["lib/hpack/int_encoder.cpp: IntegerEncoder::encode", "lib/hpack/int_decoder.cpp: IntegerDecoder::decode"]}
{"id": "C02", "title": "HPACK integer decoding is exact", "statement": "IntegerDecoder::decode succeeds with value v and rest r if and only if the input is an RFC 7541 section 5.1 representation of v followed by r, v fits in 32 bits and at most five continuation octets are used; it never returns a wrapped value, and otherwise reports an error.", "quantifier": "all byte strings, all prefix widths 1..8", "why_tests_cant": "overflow and truncation boundaries depend on every combination of continuation octets", "anchors": ["lib/hpack/int_decoder.cpp: IntegerDecoder::decode", "lib/hpack/byte_reader.cpp: ByteReader::read_byte"]}
{"id": "C03", "title": "HPACK integer encoding is canonical", "statement": "IntegerEncoder::encode rejects prefix widths 0 and >8 and otherwise emits an RFC 7541 representation of the value, of at most six octets, whose first octet leaves all bits above the prefix zero, and no shorter representation exists.", "quantifier": "all 32-bit values, all 8-bit prefix widths", "why_tests_cant": "minimality is a statement about all other encodings", "anchors": ["lib/hpack/int_encoder.cpp: IntegerEncoder::encode"]}
{"id": "C04", "title": "The Huffman table is the complete canonical prefix code", "statement": "The 256 codes are the canonical Huffman code for their lengths, fit their declared length, no code is a prefix of another, and together with the 30-bit end-of-string code they exhaust the code space, so building the decoding tree never throws.", "quantifier": "all pairs of symbols; all bit strings", "why_tests_cant": "a test that decodes each code once does not exclude prefix clashes or holes", "anchors": ["lib/hpack/huffman_codes.h: HUFFMAN_CODES", "lib/hpack/huffman_tree.cpp: HuffmanTree::insert_symbol", "lib/hpack/header_block_decoder.cpp: populate_huffman_tree"]}
{"id": "C05", "title": "Huffman round trip", "statement": "For every byte string that indexes the table within range (all of them with an unsigned char, see C21), writing the code of each byte with BitWriter, finalising, and decoding with the tree built from the table returns the same byte string.", "quantifier": "all byte strings of any length", "why_tests_cant": "unbounded string space, all alignments of code boundaries against octets", "anchors": ["lib/hpack/bit_writer.h: BitWriter", "lib/hpack/bit_reader.h: BitReader", "lib/hpack/huffman_tree.cpp: HuffmanTree::decode"]}
{"id": "C06", "title": "Huffman decoding accepts only well-formed data", "statement": "HuffmanTree::decode returns a string only when the input is the concatenation of that string's codes followed by fewer than eight 1-bits of padding, as RFC 7541 section 5.2 requires.", "quantifier": "all byte strings", "why_tests_cant": "malformed paddings are a small, unbounded-length part of the input space", "anchors": ["lib/hpack/huffman_tree.cpp: HuffmanTree::decode"]}
{"id": "C07", "title": "Huffman decoding is total and bounded", "statement": "HuffmanTree::decode terminates on every input, returns either a string or InvalidCode, never dereferences a missing node, and a string decoded from n octets has at most 8n/5 bytes.", "quantifier": "all byte strings", "why_tests_cant": "needs every path through the code tree", "anchors": ["lib/hpack/huffman_tree.cpp: HuffmanTree::decode"]}
{"id": "C08", "title": "Header string literal round trip", "statement": "A header string of at most 4096 bytes that the encoder can write (C21), written by the encoder (plain when at most 3 bytes, Huffman otherwise) and read back by the decoder, with any bytes following, yields the same string and leaves exactly the following bytes.", "quantifier": "all strings up to the limit that are encoded without the undefined indexing of C21, all suffixes", "why_tests_cant": "all contents, lengths and length-prefix boundaries", "anchors": ["lib/hpack/header_block_encoder.cpp: HeaderBlockEncoder::write_length_and_string", "lib/hpack/header_block_decoder.cpp: HeaderBlockDecoder::read_length_and_string"]}
{"id": "C09", "title": "Header string size limit", "statement": "No header name or value longer than 4096 bytes is ever delivered to a request handler or stored in the decoder's dynamic table, whatever blocks a client sends over the life of the connection.", "quantifier": "all sequences of header blocks", "why_tests_cant": "Huffman expansion and table reuse over unbounded histories", "anchors": ["lib/hpack/header_block_decoder.cpp: string_length_within_limit, read_string, decode_huffman_string"]}
{"id": "C10", "title": "Dynamic table accounting", "statement": "After any sequence of insertions and resizes the reported size equals the sum over the entries of name length + value length + 32, never exceeds the current maximum, and no step removes from an empty table.", "quantifier": "all operation sequences from any initial maximum", "why_tests_cant": "eviction interacts with every history of sizes", "anchors": ["lib/hpack/dynamic_table.cpp: insert, set_max_table_size, size, get_header_entry_size"]}
{"id": "C11", "title": "Dynamic table is the RFC FIFO", "statement": "The entries after an insertion are the longest prefix, newest first, of the new header followed by the old entries that fits the maximum (empty when the header alone does not fit), and after a resize the longest prefix of the old entries that fits.", "quantifier": "all tables, headers and maxima", "why_tests_cant": "eviction boundary depends on all sizes", "anchors": ["lib/hpack/dynamic_table.cpp: insert, set_max_table_size"]}
{"id": "C12", "title": "Dynamic table lookup", "statement": "find and find_name return the smallest position whose entry matches, get at that position returns a matching entry, and they return nothing exactly when no entry matches.", "quantifier": "all tables and headers", "why_tests_cant": "needs all tables", "anchors": ["lib/hpack/dynamic_table.cpp: find, find_name, get"]}
{"id": "C13", "title": "Header block decoding is sound", "statement": "If HeaderBlockDecoder::decode returns a header list, the block is a sequence of RFC 7541 section 6 representations (up to the Huffman padding leniency of C06) whose execution on the dynamic table, per the RFC, yields exactly that list and exactly the new table.", "quantifier": "all byte strings, all dynamic tables", "why_tests_cant": "the grammar is recursive over unbounded blocks and histories", "anchors": ["lib/hpack/header_block_decoder.cpp: decode, decode_indexed_field, decode_literal_field, decode_dynamic_table_size_update", "lib/hpack/header_field.h: HeaderField::from_byte"]}
{"id": "C14", "title": "Header block decoding is complete", "statement": "Every block that is a sequence of valid RFC 7541 representations (strictly padded Huffman strings, strings of at most 4096 bytes, integers below 2^32 written in at most six octets, table sizes at most 65536) and whose execution is defined is accepted, with exactly the RFC's result.", "quantifier": "all valid blocks, all tables", "why_tests_cant": "unbounded grammar", "anchors": ["lib/hpack/header_block_decoder.cpp: decode"]}
{"id": "C15", "title": "Header index validation", "statement": "A block referring to index 0, or to an index beyond the static table plus the current dynamic entries, is rejected with ProtocolError, and no table is ever read out of range.", "quantifier": "all blocks, all tables", "why_tests_cant": "all table sizes and indices", "anchors": ["lib/hpack/header_block_decoder.cpp: read_indexed_header, read_indexed_header_name, decode_indexed_field"]}
{"id": "C16", "title": "Header block resource bound", "statement": "Decoding a block of n bytes yields at most n headers, and after any sequence of blocks the decoder's dynamic table holds at most 65536 octets by RFC accounting.", "quantifier": "all block sequences", "why_tests_cant": "unbounded histories including size updates", "anchors": ["lib/hpack/header_block_decoder.cpp: decode", "lib/hpack/dynamic_table.h: HARD_TABLE_SIZE_LIMIT"]}
{"id": "C17", "title": "Header block decoding has no undefined behaviour", "statement": "Decoding any block returns either headers or an error; it never executes undefined behaviour.", "quantifier": "all byte strings, all tables", "why_tests_cant": "undefined behaviour is usually invisible to an assertion on the result", "anchors": ["lib/hpack/header_block_decoder.cpp: decode_indexed_field:133-144, decode_literal_field:146-167"]}
{"id": "C18", "title": "Decoder stays in step with a smaller peer table", "statement": "A client encoder that uses a table limit no larger than the decoder's (for instance the HTTP/2 default of 4096, which ion never renegotiates) is decoded exactly, over any number of blocks.", "quantifier": "all block sequences, all smaller limits", "why_tests_cant": "divergence only shows after enough insertions to evict in one table and not the other", "anchors": ["lib/hpack/dynamic_table.h: DEFAULT_MAX_TABLE_SIZE", "lib/http2_conn.h: decoder_dynamic_table_"]}
{"id": "C19", "title": "Response headers reach any conforming client", "statement": "Over a whole connection, the blocks produced by HeaderBlockEncoder::encode, decoded by any RFC 7541 decoder with the same table limit, yield exactly the header lists given to the encoder, and the two tables stay equal.", "quantifier": "all sequences of header lists", "why_tests_cant": "wrong indices only appear after enough distinct headers", "anchors": ["lib/hpack/header_block_encoder.cpp: HeaderBlockEncoder::encode"]}
{"id": "C20", "title": "Encoder respects the client's table limit", "statement": "The encoder never refers to an entry that a client with the HTTP/2 default header table size (4096 octets) has already evicted.", "quantifier": "all sequences of header lists", "why_tests_cant": "needs more than 4096 octets of distinct headers on one connection", "anchors": ["lib/hpack/header_block_encoder.cpp: encode", "lib/hpack/dynamic_table.h: DEFAULT_MAX_TABLE_SIZE", "lib/http2_conn.cpp: process_frame (SETTINGS ignored)"]}
{"id": "C21", "title": "Encoding arbitrary header bytes is defined", "statement": "HeaderBlockEncoder::encode is free of undefined behaviour for every list of header byte strings.", "quantifier": "all header lists, both signednesses of char", "why_tests_cant": "an out-of-range table read may silently return a value", "anchors": ["lib/hpack/header_block_encoder.cpp:25-28"]}
{"id": "C22", "title": "Frame header codec", "statement": "Serialising a frame header with length < 2^24 and stream id < 2^31 and parsing it back is the identity, and parsing any nine octets and serialising again reproduces them except for the reserved bit.", "quantifier": "all field values, all 9-octet strings", "why_tests_cant": "2^72 headers", "anchors": ["lib/http2_frames.h: Http2FrameHeader, load_uint24_be, load_uint32_be, store_uint24_be, store_uint32_be"]}
{"id": "C23", "title": "Setting, GOAWAY and WINDOW_UPDATE codecs", "statement": "Serialise/parse are inverse for settings, GOAWAY payloads and window updates (reserved bits dropped), and a SETTINGS payload is accepted exactly when its length is a multiple of six, yielding its entries in order.", "quantifier": "all payloads", "why_tests_cant": "unbounded payload space", "anchors": ["lib/http2_frames.h", "lib/http2_frame_reader.cpp: read_settings"]}
{"id": "C24", "title": "Frame payload access stays in bounds", "statement": "Reading the payload of any received frame never goes outside the received bytes.", "quantifier": "all frames (type, flags, payload)", "why_tests_cant": "an out-of-bounds span read is silent", "anchors": ["lib/http2_frame_reader.h: headers_block", "lib/http2_frame_reader.cpp: read_window_update"]}
{"id": "C25", "title": "Segmentation independence", "statement": "Two runs of a connection that receive the same total byte stream, however it was cut into reads, poll wake-ups and interleaved with blocked writes, and that both end waiting for input, have called the same handlers with the same requests in the same order and produced the same response bytes.", "quantifier": "all byte streams, all segmentations, all write-blocking schedules", "why_tests_cant": "the number of segmentations is exponential", "anchors": ["lib/http2_conn.cpp: fill_read_buffer, try_read_frame, internal_process"]}
{"id": "C26", "title": "Frames dispatched are exactly the frames received", "statement": "At any point the frames acted on are, in order, the leading complete frames of the bytes received after the preface; none is skipped, repeated or altered, and when the connection waits for input all complete frames have been acted on.", "quantifier": "all input streams and schedules", "why_tests_cant": "interleavings and buffer boundaries", "anchors": ["lib/http2_conn.cpp: try_read_frame, discard_processed_buffer"]}
{"id": "C27", "title": "Bounded input buffering without stall", "statement": "The bytes buffered for a connection never reach 64 KiB, and the buffer-full condition never blocks progress: whenever it holds a complete (or oversized) frame is available to act on.", "quantifier": "all input streams and schedules in which a read returns at most the octets asked for", "why_tests_cant": "needs every fill level at every frame boundary", "anchors": ["lib/http2_conn.cpp: fill_read_buffer, MAX_READ_BUFFER_SIZE"]}
{"id": "C28", "title": "Oversized frames are refused", "statement": "A frame announcing more than 16384 payload bytes is never acted on and the connection is discarded without acting on anything after it.", "quantifier": "all frames with length > 16384, all continuations", "why_tests_cant": "all continuations", "anchors": ["lib/http2_conn.cpp: try_read_frame:210-214"]}
{"id": "C29", "title": "Preface gate", "statement": "Until the peer has sent exactly the 24-byte client preface no handler runs and nothing is sent; 24 bytes that differ from it discard the connection with nothing sent.", "quantifier": "all first bytes, all segmentations", "why_tests_cant": "all 2^192 wrong prefaces, all segmentations", "anchors": ["lib/http2_conn.cpp: read_preface"]}
{"id": "C30", "title": "Server settings come first", "statement": "Everything the server ever produces on a connection starts with one SETTINGS frame (stream 0, no ACK) announcing MAX_CONCURRENT_STREAMS=100, INITIAL_WINDOW_SIZE=65535, MAX_FRAME_SIZE=16384.", "quantifier": "all runs", "why_tests_cant": "ordering over all runs", "anchors": ["lib/http2_conn.cpp: write_settings, read_preface"]}
{"id": "C31", "title": "One response per HEADERS frame, on its stream, in order", "statement": "The frames produced after the server settings are, in the order the requests were received, one SETTINGS ACK per SETTINGS frame and, per HEADERS frame, one HEADERS frame followed by the body's DATA frames, all on the request's stream, END_STREAM on exactly the last of them.", "quantifier": "all runs in which the header blocks of the responses fit the 24-bit length of a frame (C133)", "why_tests_cant": "ordering and multiplicity over all histories", "anchors": ["lib/http2_conn.cpp: process_frame, write_headers_response, write_data_response"]}
{"id": "C32", "title": "Response body framing", "statement": "The DATA frames produced for a body carry exactly the body's bytes in order, are non-empty, at most 16384 bytes each, correctly length-prefixed, and only the last carries END_STREAM.", "quantifier": "all bodies", "why_tests_cant": "all body lengths", "anchors": ["lib/http2_conn.cpp: write_data_response"]}
{"id": "C33", "title": "SETTINGS acknowledgement", "statement": "Every SETTINGS frame without ACK whose length is a multiple of six is answered with exactly one empty SETTINGS ACK; a SETTINGS ACK is never answered; a malformed one leads to the connection being discarded without an answer.", "quantifier": "all SETTINGS frames, in all runs in which the header blocks of the responses fit the 24-bit length of a frame (C133)", "why_tests_cant": "all payloads and flags", "anchors": ["lib/http2_conn.cpp: process_frame:231-246"]}
{"id": "C34", "title": "Frames without meaning for the server have no effect", "statement": "DATA, PRIORITY, RST_STREAM, PUSH_PROMISE, PING, CONTINUATION, unknown frames and (well-formed) WINDOW_UPDATE change neither the header tables nor the output nor the connection state.", "quantifier": "all such frames", "why_tests_cant": "all payloads", "anchors": ["lib/http2_conn.cpp: process_frame default"]}
{"id": "C35", "title": "Output integrity", "statement": "The bytes the peer receives are always a prefix of the bytes the server produced, in order, without loss or duplication, however writes block or are split.", "quantifier": "all runs, all write schedules", "why_tests_cant": "partial and blocked writes are schedule dependent", "anchors": ["lib/http2_conn.cpp: flush_write_buffer", "lib/transports/tcp_transport.cpp: write", "lib/transports/tls_transport.cpp: write"]}
{"id": "C36", "title": "Blocked writes are retried identically", "statement": "After a write that would block, the next write attempt passes exactly the same bytes (SSL_write's retry rule).", "quantifier": "all runs", "why_tests_cant": "schedule dependent", "anchors": ["lib/http2_conn.cpp: flush_write_buffer:489-498, internal_process"]}
{"id": "C37", "title": "A client that does not read cannot make the server buffer more", "statement": "A frame is acted on only when everything produced for earlier frames has been handed to the transport (except the initial SETTINGS), so at most one frame's answer is ever buffered.", "quantifier": "all runs", "why_tests_cant": "needs all pipelining schedules", "anchors": ["lib/http2_conn.cpp: internal_process:359-366"]}
{"id": "C38", "title": "Ended connections stay ended", "statement": "Once a connection has seen a protocol error, a GOAWAY or a close, no further frame is acted on in any later call and no state before it is re-entered.", "quantifier": "all runs", "why_tests_cant": "all continuations", "anchors": ["lib/http2_conn.cpp: internal_process, update_state"]}
{"id": "C39", "title": "Protocol errors are reported to the client", "statement": "When the connection is closed for a protocol error the client receives a GOAWAY frame with PROTOCOL_ERROR.", "quantifier": "all runs that end in a protocol error", "why_tests_cant": "requires the absence of any run that drops it", "anchors": ["lib/http2_conn.cpp: close, internal_process:392-396", "lib/http2_server.cpp:112-116"]}
{"id": "C40", "title": "No output is stranded while waiting for input", "statement": "Whenever process() reports that it only waits for input, everything produced so far has been handed to the transport.", "quantifier": "all runs", "why_tests_cant": "depends on where the input stops", "anchors": ["lib/http2_conn.cpp: internal_process:368-385"]}
{"id": "C41", "title": "Handler failures are contained", "statement": "A handler that throws a standard exception produces a 500 response on that stream, leaves the connection in service and affects no other request.", "quantifier": "all requests, handlers and histories", "why_tests_cant": "all histories", "anchors": ["lib/http2_conn.cpp: process_request:460-466, process"]}
{"id": "C42", "title": "Response header shape", "statement": "Every response starts with exactly one :status field carrying the handler's status code in decimal, followed by the handler's headers in order, then content-length when there is a body, then server and x-powered-by.", "quantifier": "all requests and handlers", "why_tests_cant": "all handlers, all header lists", "anchors": ["lib/http2_conn.cpp: process_request"]}
{"id": "C43", "title": "Content-Length is truthful", "statement": "The content-length the server adds is the decimal length of exactly the bytes carried by the response's DATA frames, and it is added exactly when there are any.", "quantifier": "all bodies, in all runs in which the header blocks of the responses fit the 24-bit length of a frame (C133)", "why_tests_cant": "all lengths", "anchors": ["lib/http2_conn.cpp: process_request:472-474, write_data_response"]}
{"id": "C44", "title": "Flow control is respected", "statement": "The server never sends more DATA bytes than the client's flow-control windows allow.", "quantifier": "all runs, all window settings", "why_tests_cant": "needs slow clients and large bodies", "anchors": ["lib/http2_conn.cpp: write_data_response, process_frame (WINDOW_UPDATE)"]}
{"id": "C45", "title": "Requests received before the client closes are answered", "statement": "Every complete request received before the client closes its side is answered.", "quantifier": "all runs with end of stream", "why_tests_cant": "depends on whether data and end of stream are read together", "anchors": ["lib/http2_conn.cpp: fill_read_buffer:149-152, internal_process:397-399"]}
{"id": "C46", "title": "process() terminates", "statement": "process() returns for every finite amount of available input and every transport behaviour; it acts on at most one frame per nine bytes received.", "quantifier": "all runs", "why_tests_cant": "termination is not testable", "anchors": ["lib/http2_conn.cpp: internal_process"]}
{"id": "C47", "title": "process() never executes undefined behaviour", "statement": "No input from the network makes process() execute undefined behaviour or leave via an exception.", "quantifier": "all runs", "why_tests_cant": "undefined behaviour is silent", "anchors": ["lib/http2_conn.cpp: process"]}
{"id": "C48", "title": "Idle time is measured from the last progress", "statement": "The idle clock is reset exactly by a completed handshake, a successful read or a successful write, and the connection counts as timed out exactly when more than 5 seconds have passed since.", "quantifier": "all runs and clock values", "why_tests_cant": "all schedules", "anchors": ["lib/http2_conn.cpp: update_last_activity, has_timed_out"]}
{"id": "C49", "title": "Route selection", "statement": "The handler chosen for a path and method is the first registered route that matches both exactly; with no such route, no applicable static handler, the response is 404.", "quantifier": "all route tables, paths, methods", "why_tests_cant": "all registration orders", "anchors": ["lib/router.cpp: get_handler, add_route"]}
{"id": "C50", "title": "Static handler selection", "statement": "Static handlers are consulted only for GET and HEAD and only when no route matches; among those whose prefix matches the last registered is used, told whether the method is HEAD.", "quantifier": "all registrations, paths, methods", "why_tests_cant": "all registration orders", "anchors": ["lib/router.cpp: get_handler:23-33", "lib/static_file_handler.cpp: matches"]}
{"id": "C51", "title": "Middleware composition", "statement": "Middleware wraps every request, including unmatched and static ones, in registration order from the outside in, each exactly once.", "quantifier": "all middleware lists", "why_tests_cant": "all lists and functions", "anchors": ["lib/router.cpp: add_middleware, get_handler:35"]}
{"id": "C52", "title": "Custom 404 page", "statement": "With a custom 404 page configured, every response that would be 404 stays 404 and carries that file's content when readable; every other response is unchanged.", "quantifier": "all handlers, files and requests", "why_tests_cant": "all handlers", "anchors": ["app/main.cpp:43-57", "lib/static_file_handler.cpp: file_response"]}
{"id": "C53", "title": "Static serving never leaves the configured directory", "statement": "Any file content served for any request path is the content of a regular file located, after resolving symbolic links, inside the configured directory.", "quantifier": "all file systems, configured roots and request paths", "why_tests_cant": "the path and file-system space is unbounded", "anchors": ["lib/file_reader.cpp: sanitize_path, read_file, is_readable", "lib/static_file_handler.cpp: handle"]}
{"id": "C54", "title": "Sanitised paths are normal", "statement": "A path returned by sanitize_path is absolute, begins with the resolved base directory component by component and contains no '.' or '..' component.", "quantifier": "all file systems, bases and requests", "why_tests_cant": "unbounded", "anchors": ["lib/file_reader.cpp: sanitize_path"]}
{"id": "C55", "title": "HEAD mirrors GET", "statement": "For an unchanged file system a HEAD on a static file has the same status and content-type as GET, no body, and a content-length equal to the length of the body GET would send.", "quantifier": "all file systems and paths", "why_tests_cant": "unbounded", "anchors": ["lib/static_file_handler.cpp: get_response, head_response, file_response"]}
{"id": "C56", "title": "Static status codes", "statement": "A static request answers 403 exactly when the path is refused, 404 exactly when the resolved path is not a readable regular file, and otherwise 200 with exactly the file's bytes.", "quantifier": "all file systems and requests", "why_tests_cant": "unbounded", "anchors": ["lib/static_file_handler.cpp: handle, file_response"]}
{"id": "C57", "title": "MIME type by extension", "statement": "The content type depends only on what follows the last '.' in the path, compared case-sensitively with the table; anything else is application/octet-stream.", "quantifier": "all paths", "why_tests_cant": "unbounded", "anchors": ["lib/file_reader.cpp: get_mime_type"]}
{"id": "C58", "title": "URL to relative path", "statement": "The relative path is the URL path without prefix, without one leading '/', and without anything from the first '?'; an empty remainder or '/' means index.html.", "quantifier": "all prefixes and URL paths", "why_tests_cant": "unbounded", "anchors": ["lib/static_file_handler.cpp: get_relative_path"]}
{"id": "C59", "title": "Connection limit", "statement": "At most 128 client connections are ever open; at the limit a new client is accepted and closed at once and existing connections are untouched.", "quantifier": "all event histories", "why_tests_cant": "all histories", "anchors": ["lib/http2_server.cpp: handle_incoming_connection, establish_conn"]}
{"id": "C60", "title": "No descriptor is leaked or confused", "statement": "At every point between events the open client sockets, the connections the server keeps and the client descriptors registered with the poller are the same set; no descriptor is closed twice, even when numbers are reused.", "quantifier": "all event histories", "why_tests_cant": "descriptor reuse is schedule dependent", "anchors": ["lib/http2_server.cpp: handle_connection_events, reap_idle_connections, establish_conn", "lib/pollers/epoll_poller.cpp: set, remove"]}
{"id": "C61", "title": "Connections are isolated", "statement": "Handling an event for one connection never changes the state of, or closes, another connection; events for unknown descriptors have no effect.", "quantifier": "all server states and events", "why_tests_cant": "all states", "anchors": ["lib/http2_server.cpp: handle_connection_events"]}
{"id": "C62", "title": "Idle connections are reaped, active ones are not", "statement": "Each loop iteration closes exactly the connections that have been idle for more than 5 seconds.", "quantifier": "all server states and clocks", "why_tests_cant": "all states", "anchors": ["lib/http2_server.cpp: reap_idle_connections"]}
{"id": "C63", "title": "Stop stops", "statement": "After stop() is called no further loop iteration begins and start() returns; without stop() the loop only ends by an exception.", "quantifier": "all histories", "why_tests_cant": "all histories", "anchors": ["lib/http2_server.cpp: start, stop"]}
{"id": "C64", "title": "Accept failures do not take the server down", "statement": "A failure to accept one client does not stop the server or affect established connections.", "quantifier": "all accept outcomes", "why_tests_cant": "rare errno values", "anchors": ["lib/tcp_listener.cpp: try_accept", "lib/http2_server.cpp: start"]}
{"id": "C65", "title": "Socket ownership", "statement": "However SocketFd objects are constructed, moved, assigned, closed and destroyed, each descriptor given to one is closed exactly once and never used after.", "quantifier": "all operation sequences", "why_tests_cant": "all sequences", "anchors": ["lib/socket_fd.cpp"]}
{"id": "C66", "title": "Poller registration", "statement": "After any sequence of set/remove on the epoll poller and socket closes, the poller's own table agrees with the kernel's interest set, so no later registration fails for being a duplicate or missing; Read/Write/Hangup/Error bits translate faithfully.", "quantifier": "all operation sequences", "why_tests_cant": "all sequences", "anchors": ["lib/pollers/epoll_poller.cpp", "lib/pollers/poll_poller.cpp", "lib/pollers/poller.h"]}
{"id": "C67", "title": "Access log accuracy", "statement": "Each answered request adds exactly one line to the access log, naming the method and path that were routed, the status and the body length.", "quantifier": "all requests", "why_tests_cant": "all header lists", "anchors": ["lib/access_log.cpp: log_request", "lib/http2_conn.cpp:281"]}
{"id": "C68", "title": "Request statistics", "statement": "The status page's total equals the number of requests handled and the per-status counts sum to the number that completed.", "quantifier": "all request histories", "why_tests_cant": "all histories", "anchors": ["app/server_stats.cpp: middleware"]}
{"id": "C69", "title": "Uptime formatting", "statement": "format_duration prints a decomposition into days, hours (<24), minutes (<60), seconds (<60) that adds up to the given number of seconds, omitting only leading zero units, and different durations print differently.", "quantifier": "all 64-bit durations", "why_tests_cant": "unbounded", "anchors": ["app/status_page.cpp: format_duration"]}
{"id": "C70", "title": "Configuration validation", "statement": "Without --cleartext the server refuses to start unless both certificate and key are given and exist; with it neither is needed.", "quantifier": "all configurations", "why_tests_cant": "all combinations", "anchors": ["lib/server_config.cpp: validate", "app/args.cpp: to_server_config", "lib/transports/tls_context.cpp"]}
{"id": "C71", "title": "Signal handling", "statement": "At most one server is registered at a time; SIGINT/SIGTERM stop the registered server with reason signal; a broken client socket never stops it, only a broken stdout or stderr does.", "quantifier": "all sequences of setup, destroy and signals", "why_tests_cant": "all sequences", "anchors": ["app/signal_handler.cpp"]}
{"id": "C72", "title": "Built-in routes appear only when enabled", "statement": "The /_tests/ routes and /_ion/status exist exactly when --under-test and --status-page are given.", "quantifier": "all argument combinations, all request paths", "why_tests_cant": "all combinations", "anchors": ["app/main.cpp: run_server", "app/test_routes.cpp", "app/status_page.cpp"]}
{"id": "C73", "title": "Transport results are classified correctly", "statement": "A would-block result is never reported as an error or a close, end of stream is reported as closed, and TLS always negotiates h2.", "quantifier": "all system-call results", "why_tests_cant": "rare results", "anchors": ["lib/transports/tcp_transport.cpp", "lib/transports/tls_transport.cpp", "lib/transports/tls_context.cpp: alpn_callback"]}
{"id": "C74", "title": "No input is left in the transport", "statement": "When a connection whose handshake is complete reports that it waits for input, the transport itself had reported at its last read that it had nothing more (or an error), and nothing was acted on after that; so no received byte waits in the transport's own buffer where no poll event would announce it.", "quantifier": "all runs", "why_tests_cant": "edge-triggered losses are schedule dependent", "anchors": ["lib/http2_conn.cpp: fill_read_buffer, internal_process"]}
{"id": "C75", "title": "ALPN selects a protocol the client offered", "statement": "The protocol the server selects during the TLS handshake is one the client offered (RFC 7301 section 3.2).", "quantifier": "all client protocol lists", "why_tests_cant": "clients in tests always offer h2", "anchors": ["lib/transports/tls_context.cpp: alpn_callback"]}
{"id": "C76", "title": "HEAD responses have no body", "statement": "No response to a HEAD request carries a body.", "quantifier": "all arguments, paths, file systems", "why_tests_cant": "all combinations of options and paths", "anchors": ["lib/router.cpp: get_handler", "lib/static_file_handler.cpp: handle", "app/main.cpp: run_server"]}
{"id": "C77", "title": "Every accepted log level is understood", "statement": "Every value of --log-level that passes the command-line check is understood by log_level_enum.", "quantifier": "all strings", "why_tests_cant": "all spellings", "anchors": ["app/args.cpp: register_opts, log_level_enum"]}
{"id": "C78", "title": "A connection with unsent output is watched for writability", "statement": "At every point between events each connection is watched for reading, and one with octets produced but not yet accepted by its transport is also watched for writing.", "quantifier": "all event histories", "why_tests_cant": "needs a full socket buffer at the right moment", "anchors": ["lib/http2_server.cpp: handle_connection_events", "lib/http2_conn.cpp: internal_process", "lib/pollers/epoll_poller.cpp: set"]}
{"id": "C79", "title": "A server that cannot poll does not run", "statement": "As long as start() runs the listener is watched for clients; if the poller cannot be created, start() fails instead of running without ever serving a client.", "quantifier": "all executions", "why_tests_cant": "epoll_create1 does not fail in tests", "anchors": ["lib/pollers/epoll_poller.cpp: EPollPoller", "lib/http2_server.cpp: start"]}
{"id": "C80", "title": "Sharing a server does not change a connection's behaviour", "statement": "Whatever the other connections of a server do, each connection behaves as some connection that is alone would: every property of all single connections (for all applications and transports) holds of each connection of every server.", "quantifier": "all servers, histories and properties of traces", "why_tests_cant": "interleavings are unbounded", "anchors": ["lib/http2_server.cpp: handle_connection_events, establish_conn", "lib/http2_conn.cpp: process"]}
{"id": "C81", "title": "Events reach the connection they were reported for", "statement": "While the events of one poll are handled, an event reported for a connection is handled by that connection even if others are closed and their descriptor numbers reused within the same batch.", "quantifier": "all batches, all reuse patterns", "why_tests_cant": "descriptor reuse is schedule dependent", "anchors": ["lib/http2_server.cpp: start, handle_connection_events"]}
{"id": "C82", "title": "A blocked handshake is watched for what it waits for", "statement": "While the TLS handshake cannot go on, the connection is kept and watched for the event OpenSSL waits for.", "quantifier": "all handshake results", "why_tests_cant": "handshakes rarely block on writing", "anchors": ["lib/http2_conn.cpp: handle_handshake", "lib/http2_server.cpp: handle_connection_events", "lib/transports/tls_transport.cpp: handshake"]}
{"id": "C83", "title": "Requests reach the application as the client sent them", "statement": "Every sequence of client frames determines the handler calls, the responses and the header table: a HEADERS frame is read by RFC 7541 with the one table of the connection; the handler for the first :path and :method is called with all fields in order; what it returns is the response on that stream, an empty 500 response if it throws. Only a frame that has to be refused escapes this, and it is the last one acted on.", "quantifier": "all applications, runs and inputs", "why_tests_cant": "unbounded header histories", "anchors": ["lib/http2_conn.cpp: process_frame, process_request", "lib/hpack/header_block_decoder.cpp"]}
{"id": "C84", "title": "End to end: the client reads the responses the handlers returned", "statement": "The frames a connection acted on determine the handler calls and the responses (as in C83), and a client that reads the frames the connection produced, with its own HPACK table, gets exactly these responses: status, fields and body on the stream of the request, in order.", "quantifier": "all applications, runs and inputs", "why_tests_cant": "two stateful codecs over unbounded histories", "anchors": ["lib/http2_conn.cpp", "lib/hpack/header_block_encoder.cpp", "lib/hpack/header_block_decoder.cpp"]}
{"id": "C85", "title": "A connection is given up only for a reason", "statement": "process() says \"discard\" only if the handshake failed for good, or, after the handshake, because the client does not start with the preface, the transport failed or was closed, the client sent GOAWAY, a frame that has to be refused, or a frame longer than the announced maximum. A handshake that fails for good does lead to \"discard\", and so does anything that ends the connection, as soon as all output is sent.", "quantifier": "all applications, runs and inputs", "why_tests_cant": "negative property over all histories", "anchors": ["lib/http2_conn.cpp: handle_handshake, internal_process, process_frame"]}
{"id": "C86", "title": "close() announces the end of the connection", "statement": "close() sends one GOAWAY frame whose last stream identifier is the highest-numbered stream acted on (RFC 9113, 6.8), with PROTOCOL_ERROR after a protocol error and NO_ERROR otherwise; a second close() does nothing.", "quantifier": "all states and runs", "why_tests_cant": "depends on the history of the connection", "anchors": ["lib/http2_conn.cpp: close, write_goaway"]}
{"id": "C87", "title": "PINGs are answered", "statement": "Every PING frame without ACK is answered by a PING frame with ACK and the same eight octets (RFC 9113, 6.7).", "quantifier": "all runs", "why_tests_cant": "all frame sequences", "anchors": ["lib/http2_conn.cpp: process_frame"]}
{"id": "C88", "title": "Field blocks are assembled as RFC 9113 says", "statement": "The field block of a request is the fragment of its HEADERS frame without padding and priority, followed by the payloads of its CONTINUATION frames (RFC 9113, 6.2 and 6.10); handler calls and responses are those for these blocks.", "quantifier": "all applications, runs and inputs", "why_tests_cant": "all ways to cut and pad a block", "anchors": ["lib/http2_conn.cpp: process_frame", "lib/http2_frame_reader.h: get_headers_block"]}
{"id": "C89", "title": "Stream identifiers", "statement": "Requests are answered only on streams whose identifiers are odd and increase (RFC 9113, 5.1.1), one response for each.", "quantifier": "all runs", "why_tests_cant": "all sequences of identifiers", "anchors": ["lib/http2_conn.cpp: process_frame, write_headers_response, write_data_response"]}
{"id": "C90", "title": "No frame exceeds the client's maximum frame size", "statement": "No frame sent has more than 16384 octets of payload, the limit every client starts with (RFC 9113, 4.2).", "quantifier": "all applications and runs", "why_tests_cant": "needs huge responses", "anchors": ["lib/http2_conn.cpp: write_headers_response, write_data_response"]}
{"id": "C91", "title": "Malformed control frames are refused", "statement": "Frames that RFC 9113 requires to be treated as connection errors (DATA or HEADERS on stream 0, SETTINGS on another stream or of a wrong length, PING or WINDOW_UPDATE of a wrong length) end the connection.", "quantifier": "all runs", "why_tests_cant": "all malformed frames", "anchors": ["lib/http2_conn.cpp: process_frame"]}
{"id": "C92", "title": "The status page shows what happened", "statement": "After any requests, a GET of /_ion/status is answered 200, marked no-store, with a page showing the whole seconds since the start, the number of requests including this one, the time the handlers took, and for exactly the status codes that were answered how often each was, in order.", "quantifier": "all argument combinations, request histories and clocks", "why_tests_cant": "all histories", "anchors": ["app/status_page.cpp: render, add_status_page", "app/server_stats.cpp: middleware"]}
{"id": "C93", "title": "Events are acted on, and sockets closed only for a reason", "statement": "Error and hangup events close the connection; read and write events run process() in the connection's own state, and its verdict decides whether the socket is closed; nothing else closes a client's socket while an event is handled.", "quantifier": "all server states and events", "why_tests_cant": "all states and event combinations", "anchors": ["lib/http2_server.cpp: handle_connection_events"]}
{"id": "C94", "title": "An iteration of the server reaps, then handles every reported event", "statement": "Each iteration of the server's loop first closes the connections that are idle, then waits, and handles every event the poller reports, in order and each to its end; a wait that fails or times out leads to nothing; stop requests take effect at its end, the last one giving the reason. An exception that leaves an iteration was thrown by the handling of one of these events.", "quantifier": "all server states, clocks, batches of events and stop requests", "why_tests_cant": "batches of any length; an event dropped at the end of a batch shows only under load", "anchors": ["lib/http2_server.cpp: start"]}
{"id": "C95", "title": "Watching for writability ends with the output", "statement": "After process() has been called for a connection, the kernel watches it for reading and writing if it wants to write; if it does not and the event reported writability, for reading only (otherwise every wait would return at once); if it does not and the event did not report writability, for what it was watched for before.", "quantifier": "all server states and events, as long as epoll_ctl does not fail", "why_tests_cant": "a busy loop is not visible in responses", "anchors": ["lib/http2_server.cpp: handle_connection_events"]}
{"id": "C96", "title": "A connection whose transport failed for good is given up", "statement": "When a write fails for good (not because the transport would block), the connection is given up and the transport not used again (OpenSSL forbids further calls after SSL_ERROR_SSL and SSL_ERROR_SYSCALL).", "quantifier": "all connections and transports", "why_tests_cant": "needs a peer that fails in a particular way at a particular time", "anchors": ["lib/http2_conn.cpp: flush_write_buffer, internal_process"]}
{"id": "C97", "title": "The listening socket is set up completely or not at all", "statement": "The listener is a non-blocking socket with a reusable address, bound to the configured port in network byte order on all interfaces, listening with the longest queue; if any step fails, construction fails with that step and the socket is closed once.", "quantifier": "all ports, byte orders, descriptor flags and failures of the calls", "why_tests_cant": "failures of fcntl, setsockopt and listen cannot be provoked in tests", "anchors": ["lib/tcp_listener.cpp: TcpListener, create_socket, configure_socket, bind_socket, start_listening", "lib/socket_fd.cpp: set_nonblocking"]}
{"id": "C98", "title": "The server leaves no descriptor open", "statement": "However start() ends (by a stop request or by an exception, during any event of any iteration), once the server is destroyed every socket it ever had is closed, exactly once, and nothing else was closed.", "quantifier": "all applications, runs and failures", "why_tests_cant": "all points at which an exception can leave the loop", "anchors": ["lib/http2_server.cpp: start, handle_connection_events", "lib/tcp_listener.cpp", "lib/socket_fd.cpp"]}
{"id": "C99", "title": "The exit status tells what happened", "statement": "The process ends with status 0 after --help, --version or a requested stop, and with status 1 if the server cannot be constructed, cannot listen or is left by an exception.", "quantifier": "all command lines, file systems, kernels and runs", "why_tests_cant": "all combinations; the state of standard output at exit", "anchors": ["app/main.cpp: main, run_server", "app/args.cpp: log_level_to_enum"]}
{"id": "C100", "title": "A broken standard output stops the server", "statement": "When SIGPIPE arrives because standard output or standard error is a broken pipe the server stops with that reason; when it arrives because of a client's socket it goes on.", "quantifier": "all states and both behaviours of the kernel on an empty write", "why_tests_cant": "signal delivery depends on the kernel", "anchors": ["app/signal_handler.cpp: sigpipe_handler"]}
{"id": "C101", "title": "TLS connections do not see each other's errors", "statement": "What a TLS transport reports for a read or write depends on that connection only: OpenSSL's error queue, which all connections of the thread share and which SSL_get_error looks at first, is empty before each call, as SSL_get_error(3) requires.", "quantifier": "all results of OpenSSL calls, all contents of the queue, all interleavings of connections", "why_tests_cant": "needs one client failing just before another one's read would block", "anchors": ["lib/transports/tls_transport.cpp: read, write, handshake"]}
{"id": "C102", "title": "Access log entries carry the time and the client's address", "statement": "The time stamp of an entry is the local time in the Common Log Format, from which every part of it (but the seconds of the offset) can be read back; the client's IPv4 address is given in dotted decimal notation, different for different clients; an entry is one line unless the client's own header fields contain line feeds.", "quantifier": "all times of years with four digits, all offsets, all addresses, all requests", "why_tests_cant": "all times and addresses", "anchors": ["lib/system_clock.cpp: clf_timestamp", "lib/socket_fd.cpp: client_ip", "lib/access_log.cpp: log_request"]}
{"id": "C103", "title": "One call does a bounded amount of work", "statement": "One call of Http2Connection::process() acts on a bounded number of frames before it returns to the server's loop, so that one client cannot hold up the others.", "quantifier": "all connections that wait for a frame, all applications, all numbers of frames", "why_tests_cant": "needs a client that sends as fast as the server reads, without end", "anchors": ["lib/http2_conn.cpp: internal_process, fill_read_buffer"]}
{"id": "C104", "title": "A client without requests does not keep its connection", "statement": "A connection on which no request is made is closed after some time, whatever else the client sends.", "quantifier": "all connections, all applications, executions without end", "why_tests_cant": "a test would have to run for ever", "anchors": ["lib/http2_conn.cpp: has_timed_out, fill_read_buffer", "lib/http2_server.cpp: reap_idle_connections"]}
{"id": "C105", "title": "Malformed requests are not handed to the application", "statement": "A request that RFC 9113, 8.2 and 8.3, calls malformed (field names with upper case or control characters, pseudo-fields missing, repeated, unknown or after other fields, connection-specific fields) is not processed: the handler is not called for it.", "quantifier": "all field sections", "why_tests_cant": "all field sections", "anchors": ["lib/http2_conn.cpp: process_frame, process_request, get_header"]}
{"id": "C106", "title": "Kinds of frames sent", "statement": "A connection sends four kinds of frames only: the SETTINGS of its preface, SETTINGS acknowledgements without payload, HEADERS and DATA on streams on which it received HEADERS, and GOAWAY.", "quantifier": "all applications, and all runs in which the header blocks of the responses fit the 24-bit length of a frame (C133)", "why_tests_cant": "all runs", "anchors": ["lib/http2_conn.cpp: write_headers_response, write_data_response, write_settings, write_settings_ack, write_goaway"]}
{"id": "C107", "title": "Clients may upload as long as the server reads", "statement": "A client that respects flow control can send any amount of DATA, since the server opens its windows again as it reads (RFC 9113, 6.9).", "quantifier": "all applications and runs", "why_tests_cant": "uploads of all sizes", "anchors": ["lib/http2_conn.cpp: process_frame"]}
{"id": "C108", "title": "The program is configured as its command line says", "statement": "Every option given (or, for the two TLS files, the environment variable if the option is not given) has the effect its description promises, options not given have their defaults, and unacceptable values end the program before anything else is done.", "quantifier": "all command lines and environments", "why_tests_cant": "all combinations; whether the compiler leaves out a copy", "anchors": ["app/args.cpp: register_opts", "app/main.cpp: main"]}
{"id": "C109", "title": "Every OpenSSL object is freed exactly once", "statement": "Each SSL object is freed exactly once, when its transport is destroyed or assigned over, and none is left over; the SSL_CTX is freed exactly once, also if its construction fails.", "quantifier": "all sequences of constructions, moves and destructions with all failures of OpenSSL calls", "why_tests_cant": "failures of SSL_set_fd cannot be provoked", "anchors": ["lib/transports/tls_transport.cpp", "lib/transports/tls_context.cpp"]}
{"id": "C110", "title": "The query does not change what is asked for", "statement": "A target with a query reaches the same route or file as its path without the query (RFC 3986, 3.3 and 3.4; RFC 9110, 4.2.2).", "quantifier": "all targets, routes, argument combinations and file systems", "why_tests_cant": "all targets", "anchors": ["lib/router.cpp: get_handler", "lib/static_file_handler.cpp: get_relative_path, handle"]}
{"id": "C111", "title": "Percent-encoded targets name the octets they stand for", "statement": "A request for a static file is answered as the request for the percent-decoded path (RFC 3986, 2.1 and 6.2.2.2).", "quantifier": "all targets and file systems", "why_tests_cant": "all encodings", "anchors": ["lib/static_file_handler.cpp: handle"]}
{"id": "C112", "title": "Table size updates only where and as large as allowed", "statement": "A header block is accepted only if its dynamic table size updates come first in it and are not above the SETTINGS_HEADER_TABLE_SIZE the server announced, 4096 by default (RFC 7541, 4.2 and 6.3).", "quantifier": "all blocks and decoder states", "why_tests_cant": "all blocks", "anchors": ["lib/hpack/header_block_decoder.cpp: decode, decode_dynamic_table_size_update"]}
{"id": "C113", "title": "What a server keeps for its clients is bounded", "statement": "Between events a server keeps at most 128 connections, for each fewer than 65536 octets of unread input and at most 65536 octets (as RFC 7541 counts) in each of its two header tables, less than 24 MiB together; and of output at most its SETTINGS frame and what the last frame was answered with.", "quantifier": "all servers, applications, clients and event histories", "why_tests_cant": "needs all clients to be hostile at once", "anchors": ["lib/http2_server.cpp: handle_connection_events", "lib/http2_conn.cpp: fill_read_buffer, process_frame", "lib/hpack/dynamic_table.cpp"]}
{"id": "C114", "title": "A client can fetch any files over one connection", "statement": "The program's responses on one connection can all be read by a client that implements RFC 7541, however many files it asks for: decoded in order, each header block gives the fields the handler's answer stands for.", "quantifier": "all arguments, file systems, clients and runs of a connection", "why_tests_cant": "needs more than sixty responses of different lengths on one connection", "anchors": ["lib/hpack/header_block_encoder.cpp: encode", "lib/http2_conn.cpp: write_headers_response", "lib/static_file_handler.cpp: handle"]}
{"id": "C115", "title": "Fields of the program's responses", "statement": "Every response of the program is the empty one for a request without :path or :method, or has :status with one of five codes, at most two fields out of content-type (one of eighteen media types), cache-control and content-length, then content-length of a body that is not empty, server and x-powered-by: no other names, in particular no date field. No response announces two different lengths, and one with a body announces no length but its own.", "quantifier": "all arguments, file systems, clients and runs of a connection", "why_tests_cant": "all requests and files", "anchors": ["lib/http2_conn.cpp: process_request", "lib/static_file_handler.cpp: handle", "app/status_page.cpp", "app/test_routes.cpp"]}
{"id": "C116", "title": "How large a request becomes", "statement": "A request handed to a handler is in proportion to what the client sent: its names and values have no more octets than a small multiple of the frame that carried them.", "quantifier": "all clients, applications and runs of a connection; all numbers of repeated references to one entry of the table", "why_tests_cant": "a header block built for the purpose", "anchors": ["lib/hpack/header_block_decoder.cpp: decode", "lib/http2_conn.cpp: process_request"]}
{"id": "C117", "title": "Static files while others change them", "statement": "A file that is served lay in the configured directory at the moment it was read, whatever other processes do to the file system while the request is handled; a file that cannot be read any more is answered 500.", "quantifier": "all file systems seen by the path check, by the readability check and when the file is opened, all contents it has when it is read", "why_tests_cant": "the window between check and use", "anchors": ["lib/static_file_handler.cpp: handle", "lib/static_file_handler.cpp: get_response", "lib/file_reader.cpp: sanitize_path", "lib/file_reader.cpp: read_file"]}
{"id": "C118", "title": "Only targets below the prefix", "statement": "Only targets that are the configured prefix or lie below it are served from the directory: the prefix ends where a segment of the target ends.", "quantifier": "all prefixes, targets, arguments and file systems", "why_tests_cant": "targets that continue the last segment of the prefix", "anchors": ["lib/static_file_handler.cpp: matches", "lib/static_file_handler.cpp: get_relative_path", "lib/router.cpp: get_handler"]}
{"id": "C119", "title": "Nothing outside the directory shows", "statement": "What lies outside the served directory has no influence on the answers: two file systems that hold the same in the directory, with the same permissions, are answered alike.", "quantifier": "all pairs of file systems, prefixes, directories and targets", "why_tests_cant": "a relation between two executions", "anchors": ["lib/static_file_handler.cpp: handle", "lib/file_reader.cpp: sanitize_path"]}
{"id": "C120", "title": "Orderly shutdown", "statement": "A connection that is given up is shut down in an orderly way: what is to be said to the client has been written, and the transport is told to shut down (TLS: close_notify) before the descriptor is closed.", "quantifier": "all connections, all event sequences, all write results", "why_tests_cant": "no test observes the end of a TLS session", "anchors": ["lib/http2_conn.cpp: internal_process", "lib/http2_conn.cpp: close", "lib/transports/tls_transport.cpp: graceful_shutdown"]}
{"id": "C121", "title": "Nothing is owed at the end", "statement": "When a connection is given up by process(), everything produced on it, in particular every response, has been handed to the transport; the only thing that can be missing is the GOAWAY frame that announces a protocol error.", "quantifier": "all connections in use, all frames, all read and write results", "why_tests_cant": "a response lost at the end shows only for particular orders of frames and writes", "anchors": ["lib/http2_conn.cpp: internal_process", "lib/http2_conn.cpp: close", "lib/http2_conn.cpp: flush_write_buffer"]}
{"id": "C122", "title": "No wake-ups for input that is not read", "statement": "The server is woken for a connection's input only if it will read it: a connection whose output is blocked is not watched for readability.", "quantifier": "all servers in use, all connections with unsent output, all numbers of events", "why_tests_cant": "busy loops need a slow client that keeps sending", "anchors": ["lib/http2_server.cpp: handle_connection_events", "lib/http2_conn.cpp: internal_process", "lib/pollers/epoll_poller.cpp: set"]}
{"id": "C123", "title": "Responses of any size over TLS", "statement": "A response of any size can be sent over TLS: the number of octets handed to SSL_write is the number to be sent.", "quantifier": "all sizes, all results of SSL_write", "why_tests_cant": "needs more than 2 GiB in one write", "anchors": ["lib/transports/tls_transport.cpp: write", "lib/http2_conn.cpp: flush_write_buffer"]}
{"id": "C124", "title": "Every request is in the access log", "statement": "With --access-log, one line for every answered request is appended to the file, in order and after what was in it, whatever --log-level is.", "quantifier": "all command lines, all sequences of requests, all contents of the file", "why_tests_cant": "the tests use the default level", "anchors": ["app/main.cpp: setup_access_logs", "app/main.cpp: main", "lib/access_log.cpp: log_request"]}
{"id": "C125", "title": "Settings are in force before the server serves", "statement": "When the server begins to serve, the process cannot gain privileges, the access log that was asked for is being written, and no spans are exported if OTEL_SDK_DISABLED says so; otherwise it does not serve.", "quantifier": "all results of start-up calls, all environments and arguments", "why_tests_cant": "failing system calls", "anchors": ["app/main.cpp: main", "app/main.cpp: configure_telemetry", "app/main.cpp: setup_access_logs", "app/proc_ctrl.cpp: enable_no_new_privs"]}
{"id": "C126", "title": "The status page can be read", "statement": "What the status page shows can be read off its HTML without ambiguity: pages that are alike show the same uptime, number of requests, average and counts per status code.", "quantifier": "all pages", "why_tests_cant": "all pairs of pages", "anchors": ["app/status_page.cpp: add_status_page"]}
{"id": "C127", "title": "Spans describe the requests", "statement": "Each HEADERS frame leads to one span, other frames to none; the span names the method and path that were routed, the client's address and the status of the response.", "quantifier": "all frames, connection states, applications", "why_tests_cant": "spans are not observed by tests", "anchors": ["lib/http2_conn.cpp: process_frame", "lib/http2_conn.cpp: process_request"]}
{"id": "C128", "title": "Log messages cannot be forged", "statement": "Each line of the program's log is a message of the program: no client can make a line appear that looks like another message.", "quantifier": "all targets, header fields, file systems and messages", "why_tests_cant": "tests use targets without line feeds", "anchors": ["lib/static_file_handler.cpp: handle", "lib/file_reader.cpp: sanitize_path", "lib/http2_conn.cpp: process_frame", "app/main.cpp: main", "app/trace_id_flag.cpp: format"]}
{"id": "C129", "title": "A conforming client is served", "statement": "If a client keeps to RFC 9113 and RFC 7541, sends each field block in one HEADERS frame without padding and no GOAWAY, and the transport does not fail, the connection is never given up; and the call in which the last octet of a request has arrived answers it as those documents say, with all octets of the response handed to the transport as soon as the transport takes them.", "quantifier": "all applications that return encodable responses or throw std::exceptions, all arguments of the program, all sequences of conforming frames, all divisions into reads and writes, all reachable states", "why_tests_cant": "all divisions of all conversations", "anchors": ["lib/http2_conn.cpp: process", "lib/http2_conn.cpp: internal_process", "lib/http2_conn.cpp: fill_read_buffer", "lib/http2_conn.cpp: flush_write_buffer", "lib/http2_conn.cpp: try_read_frame"]}
{"id": "C130", "title": "A conforming client of a shared server is served", "statement": "On a server that serves any number of clients, whatever the others send (short of the undefined behaviour of C47), a client that follows RFC 7541 and RFC 9113 in the way of C129, never leaves the connection without progress for more than five seconds and whose transport does not fail keeps its connection; once everything it sends has arrived and the transport takes what it is given, all its requests have been answered by the application's handlers and all octets of the answers handed to the transport.", "quantifier": "all application configurations, server histories with any other clients, conforming frame sequences, segmentations and partial writes; also for the program with any arguments", "why_tests_cant": "Tests have one client at a time, or several well-behaved ones; whether some history of other clients can hurt a good one is a question about all histories.", "anchors": ["lib/http2_server.cpp: handle_connection_events", "lib/http2_server.cpp: reap_idle_connections", "lib/http2_conn.cpp: process"]}
{"id": "C131", "title": "A conforming client fetches files", "statement": "A client of the program that follows RFC 7541 and RFC 9113 in the way of C129 and makes at most 43 requests, while other clients do what they like (short of the undefined behaviour of C47), receives the server's SETTINGS and frames it reads, with the default header table, as exactly the answers to its requests in their order; and a GET for the configured prefix followed by the names of searchable directories and of a readable file is answered with 200 and the content of that file, wherever in the sequence of requests it stands.", "quantifier": "all arguments of the program, server histories with any other clients, conforming frame sequences with at most 43 requests, segmentations, partial writes, header tables of 4096 to 65536 octets and file systems with files shorter than 10^19 octets", "why_tests_cant": "This joins transport, framing, field compression, routing, path resolution and file reading in one statement about the octets the client gets; tests show it for chosen requests and one client.", "anchors": ["lib/http2_server.cpp", "lib/http2_conn.cpp", "lib/static_file_handler.cpp", "app/main.cpp"]}
{"id": "C132", "title": "A file answers to its name", "statement": "A target made of the prefix, perhaps one more '/', the names of directories and of a file below the root directory, and perhaps a query, with no symbolic link and only searchable directories on the way, is answered with that file: 200 with its content for GET, 200 with the content's length and without a body for HEAD; if there is no readable regular file of that name, and no name is longer than the system allows, the answer is 404. The prefix alone, or with '/', asks for index.html.", "quantifier": "all file systems, root directories, prefixes, names, queries and both methods", "why_tests_cant": "The set of names and trees is unbounded, and weakly_canonical treats missing names specially.", "anchors": ["lib/static_file_handler.cpp: get_relative_path", "lib/file_reader.cpp: sanitize_path"]}
{"id": "C133", "title": "A frame is as long as it says", "statement": "The output of a connection is a sequence of HTTP/2 frames: every frame header announces the number of octets that follow it up to the next frame, so that a client can read the replies to the frames it sent.", "quantifier": "all applications, runs and response header blocks; the program with any arguments", "why_tests_cant": "header blocks of more than 16 MiB", "anchors": ["lib/http2_conn.cpp: write_headers_response", "lib/http2_frames.h: FrameHeader"]}
{"id": "C134", "title": "A target is served exactly when it resolves", "statement": "A request target below the static prefix is answered with 200 exactly if the operating system finds a readable regular file inside the configured directory under it: the rest of the target taken relative to the directory, or as it is if it begins with a further '/'. A GET then gets that file.", "quantifier": "all well-formed file trees, roots that are directories, targets and both methods", "why_tests_cant": "links, '.' and '..' at any place of the path", "anchors": ["lib/file_reader.cpp: sanitize_path", "lib/static_file_handler.cpp: handle"]}
{"id": "C135", "title": "Room for new clients", "statement": "A client that connects is not kept out for ever by clients that make no requests.", "quantifier": "all sequences of iterations of the server, all clients", "why_tests_cant": "starvation over an unbounded time with all 128 places taken", "anchors": ["lib/http2_server.cpp: handle_incoming_connection", "lib/http2_server.cpp: reap_idle_connections", "lib/http2_conn.cpp: has_timed_out"]}
{"id": "C136", "title": "Cancelled requests", "statement": "Once the server has read a RST_STREAM frame from the transport, it calls no handler for that stream and sends no further frame on it (RFC 9113, 5.1 and 6.4).", "quantifier": "all runs of a connection, all positions of the frame", "why_tests_cant": "how requests, cancellations and blocked writes interleave", "anchors": ["lib/http2_conn.cpp: process_frame", "lib/http2_conn.cpp: internal_process"]}
{"id": "C137", "title": "Requests with content and trailers", "statement": "A request is handled and answered once, when it is complete: when a HEADERS or DATA frame with END_STREAM has come for its stream (RFC 9113, 8.1).", "quantifier": "all runs of a connection", "why_tests_cant": "requests in several frames, with and without trailers", "anchors": ["lib/http2_conn.cpp: process_frame", "lib/http2_conn.cpp: process_request"]}
{"id": "C138", "title": "What each request is answered with", "statement": "The answer to a request depends on the program's arguments and the files alone: with --under-test the test routes give their fixed answers; with --status-page GET of /_ion/status gives 200 and the page; GET or HEAD of another target below the static prefix gives 200 with the content, or for HEAD the length, and the type of the readable regular file the target leads to inside the directory (where names that follow one that does not exist are cancelled by '..' without looking), and 403 or 404 without content if there is none; everything else gives 404. Every 404 has the content and the type of the configured page, if there is one that can be read, and nothing otherwise. A client reads this answer in the place of its request.", "quantifier": "all arguments, files, targets, methods and histories; all clients of C131", "why_tests_cant": "The combinations of arguments, files, targets and methods are unbounded.", "anchors": ["app/main.cpp: run_server", "lib/router.cpp: get_handler", "lib/static_file_handler.cpp: handle", "app/test_routes.cpp: add_test_routes", "app/status_page.cpp: add_status_page"]}
{"id": "C139", "title": "Silent clients leave on time", "statement": "While the server's loop goes round, the last progress of every connection (handshake completed, octets received, octets sent, or creation) lies at most five seconds plus the poll timeout of 25 ms plus the time one iteration's own work takes in the past. For a client: its socket is closed, or the connection is still there and made progress within that time.", "quantifier": "For all servers in service, all connections ever created, all sequences of iterations with any events, any clock values not before the iteration's begin, any bound on the work per iteration.", "why_tests_cant": "A test would have to wait through real timeouts for every interleaving of rounds, events and clock readings; the bound quantifies over all of them.", "anchors": ["lib/http2_server.cpp: Http2Server::reap_idle_connections", "lib/http2_server.cpp: Http2Server::start", "lib/http2_conn.cpp: Http2Connection::has_timed_out"]}
{"id": "C140", "title": "Repeated fields take one octet each", "statement": "A field takes exactly one octet in a header block if and only if it is in the static table or in the encoder's dynamic table, and then the table is left as it is; otherwise it takes at least two octets and is added. So a list of fields that was written once is written the next time with one octet per field. The encoder's table holds no field twice and none of the static table.", "quantifier": "For all dynamic tables, all header lists, all lists written in between, both signs of plain char.", "why_tests_cant": "The cost of a field depends on everything written before it on the connection; tests look at a few sequences.", "anchors": ["lib/hpack/header_block_encoder.cpp: HeaderBlockEncoder::encode", "lib/hpack/dynamic_table.cpp: DynamicTable::find", "lib/hpack/dynamic_table.cpp: DynamicTable::insert"]}
{"id": "C141", "title": "TLS secrets go only where they were asked for", "statement": "The secrets of TLS connections are written only to the file that SSLKEYLOGFILE names at the time, each on a line of its own behind what the file holds; without the variable nothing is written, and other files stay as they are.", "quantifier": "For all sequences of secrets, all values of the variable over time, all files and all sets of files that can be opened.", "why_tests_cant": "Needs every sequence of handshakes, values of the variable and states of the file.", "anchors": ["lib/transports/tls_context.cpp: TlsContext::TlsContext"]}
{"id": "C142", "title": "A stopped server ends soon", "statement": "If stop() is called at time t, by a signal or otherwise, the loop of start() is left at t plus the poll timeout of 25 ms plus the time one iteration's own work takes, at the latest; as long as stop() is not called it goes on.", "quantifier": "For all servers in service, all sequences of iterations, all times of the calls within them (also just before poll), any bound on the work per iteration.", "why_tests_cant": "The signal may come at any moment; a test sees few of them.", "anchors": ["lib/http2_server.cpp: Http2Server::start", "lib/http2_server.cpp: Http2Server::stop"]}
{"id": "C143", "title": "The average latency shown is the average latency", "statement": "The average latency on the status page is the time handlers took for the requests answered so far divided by their number, in milliseconds, to the nearest hundredth.", "quantifier": "For all sequences of requests, all clocks, all configurations with a status page.", "why_tests_cant": "Needs every number of requests and every total of durations, with the rounding of three double operations and of the output.", "anchors": ["app/status_page.cpp: add_status_page", "app/server_stats.cpp: ServerStats::middleware"]}
{"id": "C144", "title": "The numbers on the status page agree", "statement": "The number of requests on the status page is the sum of the counts per status code it lists.", "quantifier": "For all sequences of requests, whether their handlers return or throw, all configurations with a status page.", "why_tests_cant": "Needs every sequence of requests.", "anchors": ["app/status_page.cpp: add_status_page", "app/server_stats.cpp: ServerStats::middleware"]}
{"id": "C145", "title": "A handler can be used as long as the router", "statement": "What Router::get_handler returns can be called as long as the router exists, and does what the router had for that path and method when it was asked.", "quantifier": "For all routers, paths, methods, and all later changes: strings changed and destroyed, routes, middleware and static handlers added.", "why_tests_cant": "Use of a destroyed string often goes unnoticed in a test (and the project's tests ask only for targets without a static handler).", "anchors": ["lib/router.cpp: Router::get_handler", "lib/router.cpp: Router::add_static_handler", "lib/http2_conn.cpp: Http2Connection::process_request"]}
{"id": "C146", "title": "A server can be started again", "statement": "After start() has returned because of stop(), a further call of start() on the same server serves clients again.", "quantifier": "For all servers and all histories before and after.", "why_tests_cant": "No finite run shows that no later client is ever served.", "anchors": ["lib/http2_server.cpp: Http2Server::start", "lib/http2_server.cpp: Http2Server::stop"]}
{"id": "C147", "title": "The log tells why the server stopped", "statement": "The last line start() logs names the reason of the last call of stop(), and different reasons have different lines.", "quantifier": "For all histories, all numbers and times of calls of stop().", "why_tests_cant": "Calls of stop() come from signal handlers at any moment, and several may come.", "anchors": ["lib/http2_server.cpp: Http2Server::start", "lib/stop_reason.cpp: StopReasonHelper::to_string"]}
{"id": "C148", "title": "The server does the same without epoll", "statement": "On systems without epoll, where poll() is used instead, the server goes through the same states as with epoll given the same events: reporting every descriptor on each wake-up, in any order, makes no difference. poll() is always asked about exactly the listener and the connections, all open, each once, for reading and, with output pending (apart from the initial SETTINGS frame), for writing.", "quantifier": "For all applications, all runs of the loop, all results of poll() and all orders of its events.", "why_tests_cant": "The tests run on one platform with one poller; equivalence of the two is about all runs.", "anchors": ["lib/pollers/poller.cpp: Poller::create", "lib/pollers/poll_poller.cpp: PollPoller::poll", "lib/pollers/poll_poller.cpp: PollPoller::set", "lib/pollers/poll_poller.cpp: PollPoller::remove", "lib/http2_server.cpp: Http2Server::start"]}
{"id": "C149", "title": "A connection does what the client's octets say, and nothing else matters", "statement": "Of two connections of the same application whose clients send beginnings of the same octets, at every moment one has done exactly the first things the other has done: frames acted on, requests handed to handlers with their results, responses, log entries and octets sent to the client. Reads, wake-ups, blocked or failed writes and the clock only decide how far each has come.", "quantifier": "For all applications, all pairs of runs of process(), all results of calls, also of the last.", "why_tests_cant": "Every test run has one timing; the claim compares all pairs of timings, also when connections fail.", "anchors": ["lib/http2_conn.cpp: Http2Connection::process", "lib/http2_conn.cpp: Http2Connection::process_frame", "lib/http2_conn.cpp: Http2Connection::fill_read_buffer", "lib/http2_conn.cpp: Http2Connection::flush_write_buffer"]}
{"id": "C150", "title": "Only what lies outside is refused", "statement": "A request for a static file is refused with 403 only if it leads out of the configured directory (or that directory is not there); a target below the directory that names nothing readable is answered with 404, and one that names a readable file is served.", "quantifier": "all well-formed file trees, with any permissions on directories and any limit on the length of names; all roots, targets and both methods", "why_tests_cant": "What the operating system reports depends on links, permissions, name lengths and NUL octets at any place of the path.", "anchors": ["lib/file_reader.cpp: sanitize_path", "lib/static_file_handler.cpp: handle"]}
{"id": "C151", "title": "The access log can be read", "statement": "The access log's file can be read in one way only, as lines in Combined Log Format: the lines that were in it before and one for each request that was written, with its client, time, method, path, status, length, referer and user agent.", "quantifier": "all command lines, all contents of the file before, all sequences of answered requests", "why_tests_cant": "a log reader that is misled is not noticed by a test that looks for one line", "anchors": ["lib/access_log.cpp: log_request"]}
{"id": "C152", "title": "Stream identifiers are copied to the answer, and mean nothing else", "statement": "Of two clients that send the same frames but for the stream identifiers, however these are chosen and repeated, one has at every moment been served exactly the first things the other has: requests handed to handlers with their results, responses with status, body and header block, and log entries. The responses are for the first HEADERS frames acted on, in order, each on the stream of its request.", "quantifier": "all applications, all pairs of runs, all choices of stream identifiers", "why_tests_cant": "tests use one numbering of streams", "anchors": ["lib/http2_conn.cpp: process_frame, write_headers_response", "lib/http2_frames.h: Http2FrameHeader::parse"]}
{"id": "C153", "title": "Frames that the state of their stream does not allow are refused", "statement": "A frame that RFC 9113, section 5.1, does not allow in the state of its stream, such as DATA or HEADERS on a stream the client has ended, or RST_STREAM, WINDOW_UPDATE or CONTINUATION on an idle one, is treated as an error.", "quantifier": "all sequences of frames, all runs", "why_tests_cant": "there are many orders of frames, and an ignored one leaves no trace", "anchors": ["lib/http2_conn.cpp: process_frame"]}
{"id": "C154", "title": "What is sent is in proportion to what was received", "statement": "The octets produced for a client are exactly 27 for the settings once its preface has arrived, nine for each SETTINGS frame that is acknowledged, the sizes of the responses on the wire (header block and body, and nine for each frame of at most 16256 octets), and seventeen for GOAWAY at the end. For each nine octets received the server produces at most one response of the largest size.", "quantifier": "all applications, all runs, all sizes", "why_tests_cant": "a test sends a few frames; the bound is about any number of any frames", "anchors": ["lib/http2_conn.cpp: write_settings, write_settings_ack, write_headers_response, write_data_response, write_goaway"]}
{"id": "C155", "title": "Flags that a type of frame does not define are ignored", "statement": "As RFC 9113 section 4.1 asks, two clients whose frames differ only in flags that are not defined for the types of the frames, and in the reserved bits before stream identifiers, get exactly the same service: the same calls of handlers, responses on the same streams with the same header blocks, and log entries. Moreover only two flags are looked at at all, ACK of SETTINGS and PRIORITY of HEADERS; END_STREAM, END_HEADERS and PADDED can be set or not.", "quantifier": "all applications, all sequences of frames with any flags, all runs of the two connections", "why_tests_cant": "a test sets one flag on one frame", "anchors": ["lib/http2_conn.cpp: process_frame", "lib/http2_frame_reader.h:36-55"]}
{"id": "C156", "title": "Compression does not make header blocks larger", "statement": "A header block is never longer than its fields would be without any compression, with each string as a plain literal.", "quantifier": "all header lists, all states of the dynamic table, both signs of char", "why_tests_cant": "a test compresses ordinary fields; strings of octets with long codes are what makes it fail", "anchors": ["lib/hpack/header_block_encoder.cpp: write_length_and_string, encode"]}
{"id": "C157", "title": "A transport that has failed is left alone", "statement": "After an operation of the transport that failed for good (not just for now), no other operation of it is called.", "quantifier": "all handlers, all input, all results of the transport, all numbers of calls", "why_tests_cant": "a test has one failure at the end of its run; the question is what follows a failure, with every later result of the transport", "anchors": ["lib/http2_conn.cpp: fill_read_buffer, flush_write_buffer, internal_process", "lib/transports/tls_transport.cpp: read, write"]}
{"id": "C158", "title": "The server keeps to the states of streams when it sends", "statement": "To a client that keeps to the states of its streams, HEADERS and DATA are sent only on streams the client has opened with HEADERS and not reset, and which the server has not ended itself; DATA only after HEADERS, and HEADERS a second time only as trailers.", "quantifier": "all handlers, all input, all results of the transport, all numbers of calls", "why_tests_cant": "it is about the order of all frames received and sent, over every stream and every course of a connection; tests make one request at a time, without trailers", "anchors": ["lib/http2_conn.cpp: process_frame, write_headers_response, write_data_response", "RFC 9113 sections 5.1 and 8.1"]}
{"id": "C159", "title": "The client's settings are checked and applied", "statement": "As RFC 9113 sections 3.4 and 6.5 ask, a connection is kept only if the first frame of the client is a SETTINGS frame and no setting has a value out of its range, and settings change what the server does.", "quantifier": "all applications, all sequences of frames with any settings, all runs of the two connections", "why_tests_cant": "what settings change is a question about pairs of connections that differ in them; a test sends the settings of its client library", "anchors": ["lib/http2_conn.cpp: process_frame, write_settings_ack", "lib/http2_frame_reader.cpp: read_settings"]}
{"id": "C160", "title": "Header fields are kept out of the log", "statement": "Whatever the level of the log, what the server logs about a request does not depend on the values of header fields other than its target and method.", "quantifier": "all applications, all states of a connection, all frames, all levels", "why_tests_cant": "a test reads the log of one request; that nothing of a value gets there is about all pairs of requests", "anchors": ["lib/http2_conn.cpp: process_frame, process_request, log_dynamic_tables", "lib/hpack/header_block_decoder.cpp", "lib/hpack/dynamic_table.cpp: log_contents"]}
{"id": "C161", "title": "Refusals are explained in the log", "statement": "A frame, or a preface, for which the server ends the connection leaves exactly one line at level info or above, a warning or an error that says what is wrong with it; no other frame leaves such a line.", "quantifier": "all applications, all states of a connection that waits for frames, all frames that are handled", "why_tests_cant": "the paths that refuse a frame are many and most are reached by malformed input only", "anchors": ["lib/http2_conn.cpp: try_read_frame, read_preface, process_frame", "lib/hpack/header_block_decoder.cpp", "lib/hpack/huffman_tree.cpp: decode"]}
{"id": "C162", "title": "No complaints about calls that need not fail", "statement": "As long as the kernel refuses no registration, the server's log has no warning about epoll_ctl.", "quantifier": "all applications, all states of a server that are reached, all events, all texts from the system", "why_tests_cant": "the warning does no harm, so that tests of behaviour pass with it; that nothing else causes one is about all histories", "anchors": ["lib/http2_server.cpp: handle_connection_events, reap_idle_connections, establish_conn", "lib/pollers/epoll_poller.cpp: set, remove"]}
{"id": "C163", "title": "Connections can be counted in the log", "statement": "At the default level of the log every connection that is opened leaves a line with the number of connections then open, and every connection that ends leaves a line that says so.", "quantifier": "all applications, all states of a server that are reached, all courses of start(), all texts from the system", "why_tests_cant": "a test compares a log with an expected one; that the count is right in every log is about all histories", "anchors": ["lib/http2_server.cpp: establish_conn, handle_connection_events, reap_idle_connections, start", "app/args.cpp"]}
{"id": "C164", "title": "The log says why a connection was given up", "statement": "When the server gives up a connection that the client has not ended itself, by closing the transport or with GOAWAY, it logs an error then, and what went wrong is in the log as a warning or an error. All warnings and errors in a connection's log are about something that happened on it.", "quantifier": "all applications, all connections as the server uses them, all results of the transport, all octets received", "why_tests_cant": "a test compares the log of one connection with an expected one; that none is given up in silence is about all histories", "anchors": ["lib/http2_conn.cpp: process, fill_read_buffer, flush_write_buffer, process_state", "lib/transports/tcp_transport.cpp: read, write", "lib/transports/tls_transport.cpp: handshake, read, write"]}
{"id": "C165", "title": "The log tells attempts to leave the directory", "statement": "A request for a file that is refused leaves a warning with its target; one whose path leads out of the configured directory, and no other, leaves a warning that says so, with the path and the directory; other refusals leave an error with the reason. A request that is not refused leaves neither warning nor error.", "quantifier": "all file systems, all configured directories, all targets", "why_tests_cant": "a test tries a few targets; which targets lead out depends on the file system and its links", "anchors": ["lib/file_reader.cpp: sanitize_path, read_file, get_file_size", "lib/static_file_handler.cpp: handle, file_response, get_response, head_response"]}
{"id": "C166", "title": "The instance id stands for the number drawn", "statement": "The instance id on the status page and in the log is the 32-bit number drawn at start-up in eight lower-case hexadecimal digits; the status pages of two instances that drew different numbers are different.", "quantifier": "all 32-bit numbers, all contents of the page", "why_tests_cant": "four thousand million numbers; a test tries a few, and a digit may be wrong for the others", "anchors": ["app/server_stats.cpp: generate_id", "app/status_page.cpp: add_status_page"]}
{"id": "C167", "title": "The log gives the sizes of the dynamic tables", "statement": "At level debug the log gives, after each insertion into a dynamic table, the size of the table; and for each HEADERS frame the size, the limit and all the entries of both tables, as they were before it and, if it is answered, as they are after it.", "quantifier": "all tables, all headers, all connections in use, all frames", "why_tests_cant": "a test sees the log of a few requests and would have to compute the sizes itself", "anchors": ["lib/hpack/dynamic_table.cpp: DynamicTable::insert, log_contents", "lib/http2_conn.cpp: log_dynamic_tables, process_frame"]}
{"id": "C168", "title": "The log tells each frame once and truly", "statement": "At level debug the log has one line with the type, the flags and the length of each frame received, followed by lines about the frame that are true of it (stream, flags, number of settings, window increment, header fields in order); no such line is written without a frame.", "quantifier": "all contents of the read buffer, all states of a connection, all applications", "why_tests_cant": "the ways in which frames arrive in pieces, and all values of the numbers, are too many to test", "anchors": ["lib/http2_conn.cpp: try_read_frame, process_frame"]}
{"id": "C169", "title": "The log tells all changes of state", "statement": "At level debug the lines \"connection state changed from \u2026 to \u2026\" of a connection form a chain: the first starts in AwaitingHandshake, each starts where the one before ended, no line tells a change from a state to itself, and the last ends in the state in which the connection is. They can be read in one way only.", "quantifier": "all applications and transports that do not write such lines themselves, all inputs, all sequences of calls of process and close", "why_tests_cant": "state is changed in some twelve places; a test sees a few of the paths through them", "anchors": ["lib/http2_conn.cpp: update_state, process, close, fill_buffer, flush_write_buffer, process_frame, try_read_frame, handle_handshake"]}
{"id": "C170", "title": "The log tells all octets read and written", "statement": "At level trace the log has one line for each read that returned octets and one for each write that took some, in the order in which they happened, with the right number; a line about a read also gives the number of octets that then wait in the read buffer. There are no other such lines, and the numbers add up to the octets received from the client and to those that the transport took.", "quantifier": "all applications and transports that do not write such lines themselves, all inputs and all ways to cut them, all sequences of calls of process and close", "why_tests_cant": "the ways in which octets can be cut into reads and writes are too many to test", "anchors": ["lib/http2_conn.cpp: fill_buffer, flush_write_buffer, process, read_preface, try_read_frame"]}
{"id": "C171", "title": "The log tells what each header representation was", "statement": "At level trace (debug for insertions) the decoder of header blocks writes, for each representation that it accepts, in order: its kind and first octet; the table and the place in it, counted from zero, of an index, with the name and value found there; the name and value of a literal; the new size of the table; and, if a field is inserted, one line with the size of the entry and the limit. It writes nothing else about them. For a block that is refused these lines are followed by the kind and the first octet of the representation refused. The position in the message about wrong Huffman code is that of a zero bit of the string.", "quantifier": "all dynamic tables, all header blocks, all strings in Huffman code", "why_tests_cant": "header blocks and tables are unbounded, and a wrong place or name in the log shows only at level trace", "anchors": ["lib/hpack/header_block_decoder.cpp: decode, decode_indexed_field, decode_literal_field, read_indexed_header, read_indexed_header_name, decode_dynamic_table_size_update", "lib/hpack/huffman_tree.cpp: HuffmanTree::decode", "lib/hpack/dynamic_table.cpp: DynamicTable::insert", "lib/hpack/header_field.h: HeaderField::to_string"]}
{"id": "C172", "title": "The log tells all frames sent", "statement": "For each frame that a connection puts into its write buffer the log has one line, in the same order, and the line is true of it: the server's SETTINGS frame, each acknowledgement of the client's, the HEADERS frame of each answer with its status, and the last GOAWAY frame; after the line of an answer with a body comes one with the length of the body, and then for each DATA frame one with the number of octets in it and the number of those of the body that remain, which is zero exactly for the frame that ends the stream. There are no other such lines.", "quantifier": "all applications and transports that do not write such lines themselves, all inputs, all ways to cut them, all sequences of calls of process and close, answers whose header block fits the length field", "why_tests_cant": "bodies of all sizes, and all sequences of frames and calls, are too many to test", "anchors": ["lib/http2_conn.cpp: write_settings, write_settings_ack, write_headers_response, write_data_response, write_goaway, process_frame, close"]}
{"id": "C173", "title": "Nobody else writes the connection's lines", "statement": "In the server as it is, over TCP and TLS and with the application's handlers, only the connection itself writes lines about changes of state, octets read and written, and frames sent, whatever paths clients ask for and whatever texts errors have. So on each of its connections these lines lead from AwaitingHandshake to the state the connection is in, agree with what the transport did, and are one for each frame sent.", "quantifier": "all command lines, worlds, requests, results of system calls and of OpenSSL, texts of errors, all sequences of calls of process and close", "why_tests_cant": "whether a text that a client chooses can pass for another line depends on all lines and all texts; tests look at a few", "anchors": ["lib/transports/tcp_transport.cpp: read, write, graceful_shutdown", "lib/transports/tls_transport.cpp: handshake, read, write, graceful_shutdown", "lib/static_file_handler.cpp", "lib/file_reader.cpp", "app/main.cpp: run_server", "lib/http2_conn.cpp"]}
{"id": "C174", "title": "How long the pollers wait, and how much they report", "statement": "The kernel waits exactly as long as the pollers are asked to wait, or for ever if they are asked for a negative time; epoll_wait is always told the true number of events that the buffer holds, which is never zero; what it reports is never read beyond the buffer; and the buffer grows only when it was full, which happens at most twice in a server's life, so that it never holds more than 256 events.", "quantifier": "all timeouts of 64 bits; all sequences of iterations of the server in which the kernel reports watched descriptors, each once, and not more than it is told to", "why_tests_cant": "timeouts of weeks cannot be waited for, and crowds of clients that fill the buffer are not part of the tests", "anchors": ["lib/pollers/epoll_poller.cpp: poll", "lib/pollers/poll_poller.cpp: poll", "lib/tcp_listener.cpp: to_poll_timeout_ms", "lib/http2_server.cpp: start"]}
{"id": "C175", "title": "Every message tells which part wrote it", "statement": "From the first words of a message in the log one can tell whether the server, a connection, a transport or a handler wrote it, whatever clients request and whatever texts of errors the system gives: the words with which messages of the four parts begin do not overlap, and no part writes a message that begins with something a client or the system chose. So the messages recognizable as the connection's are all those it writes, none is of the server that the server did not write, and none is unrecognizable.", "quantifier": "all handlers' calls, requests, file systems and texts of errors; all results of the transports; all states of connections and all calls of process; all runs of the server", "why_tests_cant": "that some text a client chooses never begins a line cannot be seen from the lines that chosen requests produce", "anchors": ["lib/http2_conn.cpp", "lib/http2_server.cpp", "lib/transports/tcp_transport.cpp", "lib/transports/tls_transport.cpp", "lib/static_file_handler.cpp", "lib/file_reader.cpp", "lib/pollers/epoll_poller.cpp", "lib/socket_fd.cpp"]}
{"id": "C176", "title": "What --log-level leaves in the log", "statement": "With a value of --log-level that is understood, exactly the messages of that level and of more severe ones are written, in their order; a more severe level shows nothing that a less severe one does not show; with critical and off nothing is written by the server, its connections, transports and handlers. With every other level the log still says, for each frame for which the server ends the connection, what is wrong with it.", "quantifier": "all values of --log-level that are understood and all messages of the server, its connections, transports and handlers; all states of a connection that awaits a frame and all contents of its read buffer", "why_tests_cant": "one run has one level; that a refusal is explained at each of them would have to be tried for every malformed frame", "anchors": ["app/args.cpp: log_level_enum", "app/main.cpp: main", "lib/http2_conn.cpp: try_read_frame, process_frame"]}
{"id": "C177", "title": "The log can be read back", "statement": "From the file of the program's log one can tell which messages were logged, in which order, and for each of them the time, the level, the trace if there was one, and the message: two different sequences of log entries never give the same file.", "quantifier": "all sequences of entries with messages that the server, its connections, transports and handlers write; all times, levels and traces without closing brackets", "why_tests_cant": "an ambiguity shows only if one compares all pairs of logs", "anchors": ["app/main.cpp: main", "app/trace_id_flag.cpp: TraceIdFlag::format", "lib/http2_conn.cpp", "lib/http2_server.cpp", "lib/static_file_handler.cpp"]}
{"id": "C178", "title": "The log tells how the program ended", "statement": "When the process ends after its command line was accepted, the last message of main says how: \"exiting\" if the exit status is 0, and \"fatal error\" with the reason, at level critical, if it is 1, so that a failure is explained at every level but off. Neither message is written if the process does not end like this.", "quantifier": "all command lines, all results of start-up (telemetry, prctl, the access log, certificates, the listening socket) and all runs of the server", "why_tests_cant": "most of the failures of start-up need an environment that tests do not have", "anchors": ["app/main.cpp: main, run_server, setup_access_logs, configure_telemetry", "app/proc_ctrl.cpp: enable_no_new_privs", "app/status_page.cpp: add_status_page"]}
{"id": "C179", "title": "The log announces what is served", "statement": "Before it listens, main logs what it is going to serve, at level info: whatever is answered with another status than 404 is a test route after \"running under test mode\", the status page after \"status page enabled\", or has a prefix for which a directory was announced. What is announced is served: no test route is answered with 404, the status page is answered with 200, and the prefix and the directory read off the message are those of the command line.", "quantifier": "all command lines, all results of start-up, all requests and states of the application", "why_tests_cant": "that nothing else is served needs all requests; that the message is unambiguous needs all pairs of prefixes and directories", "anchors": ["app/main.cpp: main, run_server", "app/status_page.cpp: add_status_page", "app/test_routes.cpp: add_test_routes", "lib/router.cpp: get_handler"]}
